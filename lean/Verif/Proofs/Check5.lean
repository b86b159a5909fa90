import Verif.Proofs.CheckTold
/-!
Helper lemmas about characters behind line continuations, read with issues, and the simpler token
handlers.
-/
namespace CodeParser.Chk
open CodeParser (Bad Path WF SameAt MSim R)
open Spec (IsScalar)

/-- What is needed of the options: not the scan for unrecognized long names, and the start of the token
has the property that tracked locations are to have. -/
structure Fit (E : Env) (T : Want) : Prop where
  scan : E.scan = false
  tracked : T E.tokenStart

section
variable {E : Env} {T : Want} {z : St}

theorem Fit.inText (h : Fit E T) : Fit E.inText T := ⟨h.scan, h.tracked⟩
theorem Fit.unwatched (h : Fit E T) : Fit E.unwatched T := ⟨h.scan, h.tracked⟩

theorem peekWL_sim' (hE : Fit E T) : Sim E.cfg T never z Read (CodeParser.peekWL E.cfg) (peekWL E) := by
  unfold CodeParser.peekWL peekWL
  refine Sim.mark.bind fun m m' hm => (nextWL_full hE.scan).bind fun c c' hc => ?_
  exact (Sim.seek hm).bindE fun _ => Sim.pure hc

theorem skipWhite_sim' {c c' : WLC} (hE : Fit E T) (hc : Read c c') :
    Sim E.cfg T never z Read (CodeParser.skipWhite E.cfg c) (skipWhite E c') := by
  unfold CodeParser.skipWhite skipWhite
  refine Sim.loop Read ?_ hc
  rintro c c' ⟨rfl, hc⟩
  refine Sim.ite (fun _ => ?_) fun _ => Sim.pure (.inr ⟨rfl, hc⟩)
  refine (Quiet.when fun _ => Quiet.emit (by exact hE.tracked)).sim fun _ _ => ?_
  refine (nextWL_full hE.scan).bind fun _ _ _ => (peekWL_sim' hE).bind fun _ _ h => Sim.pure (.inl h)

theorem nextC_sim' (hE : Fit E T) : Sim E.cfg T never z Read (CodeParser.nextC E.cfg) (nextC E) := by
  unfold CodeParser.nextC nextC
  refine (nextWL_full hE.scan).bind fun c c' hc => Sim.loop Read ?_ hc
  rintro c c' ⟨rfl, hc⟩
  refine Sim.ite (fun _ => ?_) fun _ => Sim.pure (.inr ⟨rfl, hc⟩)
  refine (peekWL_sim' hE).bind fun c c' hc => (skipWhite_sim' hE hc).bind fun d d' hd => ?_
  refine (Quiet.when fun _ => Quiet.emit ?_).sim fun _ _ => ?_
  · split <;> exact hE.tracked
  · exact (nextWL_full hE.scan).bind fun _ _ _ => Sim.pure (.inl hd)

theorem curC_sim' (hE : Fit E T) : Sim E.cfg T never z Read (CodeParser.curC E.cfg) (curC E) := by
  unfold CodeParser.curC curC
  refine Sim.mark.bind fun m m' hm => (nextC_sim' (E := E.unwatched) hE.unwatched).bind fun c c' hc => ?_
  exact (Sim.seek hm).bindE fun _ => Sim.pure hc

theorem nextC_simE (hE : Fit E T) : Sim E.cfg T never z Eq (CodeParser.nextC E.cfg) (nextC E) := (nextC_sim' hE).mono fun _ _ h => h.1
theorem curC_simE (hE : Fit E T) : Sim E.cfg T never z Eq (CodeParser.curC E.cfg) (curC E) := (curC_sim' hE).mono fun _ _ h => h.1
theorem src_gen {cfg : Cfg} {E' : Env} (h : E'.cfg = cfg) : Sim cfg T never z Eq (CodeParser.src cfg) (src E') := by
  subst h; exact src_simE
theorem nextC_gen {cfg : Cfg} {E' : Env} (h : E'.cfg = cfg) (hE : Fit E' T) : Sim cfg T never z Eq (CodeParser.nextC cfg) (nextC E') := by
  subst h; exact nextC_simE hE
/-! ### Tokens -/

theorem keeps_tok {k : TK} {start : St} : Keeps (CodeParser.tok k start) := by
  intro s a t h
  unfold CodeParser.tok at h
  split at h
  · injection h with h; injection h with _ h; exact h.symm
  · cases h

theorem keeps_assertB {b : Bool} : Keeps (CodeParser.assertB b) := by
  unfold CodeParser.assertB
  split
  · exact keeps_pure
  · exact keeps_panic

theorem keeps_assertAscii {m : St} {b : UInt8} : Keeps (CodeParser.assertAscii m b) := by
  unfold CodeParser.assertAscii
  split
  · exact keeps_panic
  · exact keeps_assertB

section
variable {pol : Pol} {start start' m m' : St} {c : WLC} {w : St}

theorem tok_s {k : TK} (h : Marks E.cfg z start start') : Sim E.cfg T never w Eq (CodeParser.tok k start) (tok k start') :=
  Sim.lift (tok_sim h.1) keeps_tok keeps_tok

theorem errorTokAt_s {k : TK} (h : Marks E.cfg z start start') :
    Sim E.cfg T never w Eq (CodeParser.errorTokAt k start) (errorTokAt k start') :=
  Sim.lift (errorTokAt_sim h.1) (fun s a t h => by injection h with h; injection h with _ h; exact h.symm)
    (fun s a t h => by injection h with h; injection h with _ h; exact h.symm)

theorem assertB_s {b : Bool} : Sim E.cfg T never w Eq (CodeParser.assertB b) (assertB b) :=
  Sim.lift (assertB_sim b) keeps_assertB keeps_assertB

theorem assertAscii_s {b : UInt8} (h : Marks E.cfg z m m') :
    Sim E.cfg T never w Eq (CodeParser.assertAscii m b) (assertAscii m' b) :=
  Sim.lift (assertAscii_sim h.1) keeps_assertAscii keeps_assertAscii

theorem panic_s {α : Type} {p : Site} {ra : α → α → Prop} :
    Sim E.cfg T never w ra (CodeParser.M.panic p) (M.panic p) := fun _ _ _ _ => rfl

theorem tokNext_s {k : TK} (hE : Fit E T) (h : Marks E.cfg z start start') :
    Sim E.cfg T never w Eq (CodeParser.tokNext E.cfg k start) (tokNext E k start') := by
  unfold CodeParser.tokNext tokNext
  exact (nextC_simE hE).bindE fun _ => tok_s h

theorem between_nil {s : St} : between s s = [] := between_eq rfl

theorem backup_s (h : Marks E.cfg z m m') : Sim E.cfg T never z Eq (CodeParser.M.seek m) (backupAndWarn E m') := by
  unfold backupAndWarn
  refine Quiet.sim (Quiet.when fun _ => Quiet.emit (issue_placed h.2 h.2.self rfl ?_ fun _ => .ambiguous between_nil)) fun _ _ => Sim.seek h
  intro a ha
  simp only [List.mem_singleton] at ha; subst ha
  rfl

/-- One step through a token handler. -/
macro "cs1" : tactic => `(tactic| with_reducible first
  | exact Sim.pure rfl
  | exact Sim.inl
  | exact Sim.inr
  | exact tok_s (by assumption)
  | exact errorTokAt_s (by assumption)
  | exact tokNext_s (by assumption) (by assumption)
  | exact nextC_simE (by assumption)
  | exact curC_simE (by assumption)
  | exact panic_s
  | (refine Sim.bindE (nextC_gen (by with_unfolding_all rfl) (by first | assumption | exact Fit.inText (by assumption))) fun _ => ?_)
  | (refine Sim.bindE (curC_simE (by assumption)) fun _ => ?_)
  | (refine Sim.bindE assertB_s fun _ => ?_)
  | (refine Sim.bindE (assertAscii_s (by assumption)) fun _ => ?_)
  | (refine Sim.bindE (src_gen (by with_unfolding_all rfl)) fun _ => ?_)
  | (refine Sim.bindE peek_simE fun _ => ?_)
  | (refine Sim.bindE (backup_s (by assumption)) fun _ => ?_)
  | (refine Sim.bindE (Sim.seek (by assumption)) fun _ => ?_)
  | (refine Sim.bind Sim.mark fun _ _ _ => ?_)
  | exact Sim.seek (by assumption)
  | (refine Sim.ite (fun _ => ?_) (fun _ => ?_))
  | (refine Sim.loopE fun _ => ?_)
  | (refine Sim.bindE (Sim.loopE fun _ => ?_) fun _ => ?_))

macro "cs" : tactic => `(tactic| repeat' cs1)

variable (hE : Fit E T)
include hE

theorem embedded_quiet {p : CP} : Quiet E.cfg T w (fun _ => True) (embedded E.inText p) := by
  unfold embedded
  refine Quiet.ite (fun _ => Quiet.emit (by exact hE.tracked)) fun _ => Quiet.ite (fun _ => Quiet.emit (by exact hE.tracked)) fun _ => Quiet.pure trivial

theorem handleComment_s {c : CP} (h : Marks E.cfg z start start') :
    Sim E.cfg T never w Eq (CodeParser.handleComment E.cfg start c) (handleComment E start' c) := by
  unfold CodeParser.handleComment handleComment
  cs
  exact (embedded_quiet hE).sim fun _ _ => by cs

theorem handleBlob_s (h : Marks E.cfg z start start') :
    Sim E.cfg T never w Eq (CodeParser.handleBlob E.cfg start c) (handleBlob E start' c) := by
  unfold CodeParser.handleBlob handleBlob; cs

/-! ### Symbols and strings -/

omit hE in
theorem spanFrom_quiet {p : St} (hp : Pos E.cfg z p) :
    Quiet E.cfg T p (fun sp => ∃ q, Pos E.cfg p q ∧ sp = ⟨p.loc, q.loc⟩) (spanFrom p.loc) := by
  have hpp := hp.self
  unfold spanFrom
  intro s hs
  obtain ⟨a, t, es, h1, h2, h3⟩ := Quiet.spanOf (T := T) (z := p) hs s hs
  exact ⟨a, t, [] ++ es, bind_ok rfl h1, ⟨s, hs, h2⟩, h3⟩

omit hE in
theorem slotIssue_quiet {p : St} (hp : Pos E.cfg z p) : Quiet E.cfg T p (fun _ => True) (slotIssue p.loc) := by
  unfold slotIssue
  refine (spanFrom_quiet hp).bind fun sp hsp => ?_
  obtain ⟨q, hq, rfl⟩ := hsp
  exact Quiet.emit (issue_placed hp.self hq rfl (by simp) fun _ => .slot)

omit hE in
theorem unexpectedChar_quiet {p : St} {tag : Tag} {conf : Nat} (hp : Pos E.cfg z p) (hc : Ready c) (hn : ∃ n, c.point = .char n)
    (htag : tag ∈ [.unexpectedLetterlikeCharacter, .unexpectedSpaceCharacter, .unexpectedNewlineCharacter]) (hconf : conf = 80 ∨ conf = 85 ∨ conf = 95) :
    Quiet E.cfg T p (fun _ => True) (unexpectedChar p.loc c tag conf) := by
  obtain ⟨n, hn⟩ := hn
  obtain ⟨h1, h2⟩ := hc n hn
  unfold unexpectedChar
  refine (spanFrom_quiet hp).bind fun sp hsp => (certain_quiet (sp := sp) hc).bind fun as has => ?_
  refine Quiet.bind (ra := fun _ => True) (by unfold shownFor; refine Quiet.ite (fun _ => ?_) fun _ => ?_; rotate_left; exact safe_quiet h1 h2; exact (Quiet.shown h2).bind fun _ _ => Quiet.pure trivial) fun _ _ => ?_
  obtain ⟨q, hq, rfl⟩ := hsp
  exact Quiet.emit (issue_placed hp.self hq rfl (fun a ha => inPlace_span (has a ha)) fun _ => .confusable htag hconf has)

omit hE in
theorem mbLetter_char {p : CP} (h : p.isMBLetterlike = true) : ∃ n, p = .char n := by
  cases p <;> first
    | exact ⟨_, rfl⟩
    | (exfalso; revert h; unfold CP.isMBLetterlike; simp [CP.isMBStringMeta, CP.isLineContinuation, CP.isMBLinearSyntax, CP.isMBUnsafe])

omit hE in
theorem letterIssue_quiet {p : St} {b : Bool} (hp : Pos E.cfg z p) (hc : Ready c) :
    Quiet E.cfg T p (fun _ => True) (letterIssue E pol p.loc c b) := by
  unfold letterIssue
  refine Quiet.ite (fun _ => Quiet.pure trivial) fun _ => Quiet.ite (fun _ => Quiet.when fun _ => slotIssue_quiet hp) fun _ =>
    Quiet.ite (fun h => ?_) fun _ => Quiet.ite (fun h => ?_) fun _ => Quiet.ite (fun _ => ?_) fun _ => Quiet.pure trivial
  · refine unexpectedChar_quiet hp hc ?_ (by decide) (by decide)
    revert h
    cases c.point <;> first | (intro _; exact ⟨_, rfl⟩) | (intro h; cases h)
  · refine unexpectedChar_quiet hp hc (mbLetter_char ?_) (by decide) (by decide)
    unfold isMBStrangeLetterlike at h
    simp only [Bool.and_eq_true] at h
    exact h.1
  · refine (spanFrom_quiet hp).bind fun sp hsp => ?_
    obtain ⟨q, hq, rfl⟩ := hsp
    exact Quiet.emit (issue_placed hp.self hq rfl (by simp) fun _ => .tagSlot)

theorem letterRead_s {b : Bool} (hc : Ready c) {α : Type} {rb : α → α → Prop} {k : CodeParser.M α} {k' : M α}
    (hk : Sim E.cfg T never w rb k k') :
    Sim E.cfg T never w rb (CodeParser.nextC E.cfg >>= fun _ => k) (letterRead E pol c b >>= fun _ => k') := by
  intro s s' hs hp
  have e : (letterRead E pol c b >>= fun _ => k') = (here >>= fun l => nextC E >>= fun _ => letterIssue E pol l c b >>= fun _ => k') := by
    unfold letterRead
    rw [M.assoc]; congr 1; funext l
    rw [M.assoc]
  rw [e]
  have e2 : (here >>= fun l => nextC E >>= fun _ => letterIssue E pol l c b >>= fun _ => k') s' =
      (nextC E >>= fun _ => letterIssue E pol s'.loc c b >>= fun _ => k') s' := by
    show M.bind here _ s' = _
    unfold M.bind here
    simp only
    rcases (nextC E >>= fun _ => letterIssue E pol s'.loc c b >>= fun _ => k') s' with e | ⟨a, t, es⟩ <;> rfl
  rw [e2]
  refine Out.bindUp hp (nextC_simE (T := T) hE s s' hs hp.self) fun a t a' t' _ _ _ _ ht hpt => ?_
  obtain ⟨a, u, es, h1, h2, h3, h4, h5⟩ := letterIssue_quiet (E := E) (T := T) (pol := pol) (b := b) hp hc t' hpt
  have q : QuietAt E.cfg T w (fun _ => True) (letterIssue E pol s'.loc c b) t' :=
    ⟨a, u, es, h1, h2, h3, hp.trans h4, fun e he => (h5 e he).up hp⟩
  exact q.out ht fun _ u _ hu hpu => hk t u hu hpu

theorem symbolSegment_s : Sim E.cfg T never w Eq (CodeParser.symbolSegment E.cfg c) (symbolSegment E pol c) := by
  unfold CodeParser.symbolSegment symbolSegment
  refine assertB_s.bindE fun _ => (curC_sim' hE).bind fun c c' hc => Sim.loop Read ?_ hc
  rintro c c' ⟨rfl, hc⟩
  refine Sim.ite (fun _ => ?_) fun _ => Sim.ite (fun _ => ?_) fun _ => by cs
  · cs1; exact (curC_sim' hE).bind fun c c' hc => Sim.pure (.inl hc)
  · exact letterRead_s hE hc ((curC_sim' hE).bind fun c c' hc => Sim.pure (.inl hc))

theorem handleSymbol_s (h : Marks E.cfg start' start start') (hc : Ready c) :
    Sim E.cfg T never start' Eq (CodeParser.handleSymbol E.cfg pol start c) (handleSymbol E pol start' c) := by
  unfold CodeParser.handleSymbol handleSymbol
  refine assertB_s.bindE fun _ => Sim.bindE ?_ fun _ => Sim.bindE (Sim.loopE fun c => ?_) fun _ => by cs
  · unfold CodeParser.symbolFirst symbolFirst
    refine Sim.ite (fun _ => ?_) fun _ => Sim.pure rfl
    exact (letterIssue_quiet h.2 hc).sim fun _ _ => symbolSegment_s hE
  · refine Sim.ite (fun _ => Sim.inr) fun _ => ?_
    refine (Quiet.when fun _ => slotIssue_quiet h.2).sim fun _ _ => ?_
    refine (curC_sim' hE).bind fun c c' hc => ?_
    obtain ⟨rfl, hc⟩ := hc
    refine Sim.ite (fun _ => ?_) fun _ => Sim.inr
    exact letterRead_s hE hc ((symbolSegment_s hE).bindE fun _ => Sim.inl)

theorem handleString_s (h : Marks E.cfg start' start start') :
    Sim E.cfg T never start' Eq (CodeParser.handleString E.cfg start c) (handleString E pol start' c) := by
  unfold CodeParser.handleString handleString
  refine assertB_s.bindE fun _ => (Quiet.when fun _ => slotIssue_quiet h.2).sim fun _ _ => ?_
  cs
  exact (embedded_quiet hE).sim fun _ _ => Sim.inl

/-! ### Tags and files -/

theorem tagRest_s (h : Marks E.cfg start' start start') (hc : Ready c) :
    Sim E.cfg T never start' Eq (CodeParser.stringifyAsTagRest E.cfg start c) (stringifyAsTagRest E start' c) := by
  unfold CodeParser.stringifyAsTagRest stringifyAsTagRest
  refine Sim.ite (fun _ => Sim.here fun p hp => ?_) fun _ => by cs
  refine (letterIssue_quiet hp hc).sim fun _ _ => (symbolSegment_s hE).bindE fun _ => ?_
  cs

theorem tagAt_s (h : Marks E.cfg start' start start') : Sim E.cfg T never start' Eq
    (CodeParser.nextC E.cfg >>= fun c =>
      if c.point = .eof then CodeParser.errorTokAt .Error_ExpectedTag start
      else if c.point = ch '\n' ∨ c.point = ch '\r' ∨ c.point = .crlf then
        CodeParser.errorTokAt .Error_ExpectedTag start
      else if c.point = ch '"' then CodeParser.handleString E.cfg start c
      else CodeParser.stringifyAsTagRest E.cfg start c) (nextTokenTagAt E start') := by
  unfold nextTokenTagAt
  refine (nextC_sim' hE).bind fun c c' hc => ?_
  obtain ⟨rfl, hc⟩ := hc
  cs
  · exact handleString_s hE h
  · exact tagRest_s hE h hc

omit hE in
theorem fileBrackets_s {c : CP} : Sim E.cfg T never w Eq (CodeParser.fileBrackets E.cfg c) (fileBrackets E c) := by
  unfold CodeParser.fileBrackets fileBrackets; cs

omit hE in
theorem fileLoop_s {c : CP} : Sim E.cfg T never w Eq (CodeParser.fileLoop E.cfg c) (fileLoop E c) := by
  unfold CodeParser.fileLoop fileLoop
  cs
  refine fileBrackets_s.bindE ?_
  rintro (_ | c) <;> (simp only; cs)

omit hE in
theorem fileRest_s {c : CP} (h : Marks E.cfg start' start start') :
    Sim E.cfg T never w Eq (CodeParser.stringifyAsFileRest E.cfg start c) (stringifyAsFileRest E start' c) := by
  unfold CodeParser.stringifyAsFileRest stringifyAsFileRest
  refine Sim.ite (fun _ => peek_simE.bindE fun _ => fileLoop_s.bindE fun _ => by cs) fun _ => ?_
  cs
  · refine fileBrackets_s.bindE ?_
    rintro (_ | c)
    · simp only; cs
    · simp only; exact fileLoop_s.bindE fun _ => by cs

end
end
end CodeParser.Chk
