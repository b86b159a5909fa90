import Verif.Proofs.Check13
/-!
Helper lemmas: the parselets and loops of the parser that looks for issues, compared with those of the
parser that does not.
-/
namespace CodeParser.Chk.Par
open CodeParser (WF SameAt)

/-- The tokens of the job lie in the text; loops are for operators and brackets that exist. -/
def JobFits (cfg : Cfg) (z : St) : Job → Prop
  | .prefix t => Fits cfg z t
  | .infix t => Fits cfg z t
  | .groupLoop c _ => ∃ k, groupOpenerToCloser k = some c
  | .infixLoop op => op ≠ .CodeParser_InternalInvalid
  | _ => True

theorem NearS.top {s s' : PS} (h : NearS s s') : s'.topPrec = s.topPrec := by
  unfold PS.topPrec; rw [h.ctxs]

theorem NearS.missing {s s' : PS} (h : NearS s s') : missingKind s' = missingKind s := by
  unfold missingKind; rw [h.top]

theorem kind_ne {k : Tok} {p : TK → Bool} (h : p k.kind = true) (hp : p .EndOfFile = false) : k.kind ≠ .EndOfFile :=
  fun h' => by rw [h', hp] at h; cases h

theorem kind_of {k : Tok} {K : TK} (h : k.kind = K) (hK : K ≠ .EndOfFile) : k.kind ≠ .EndOfFile :=
  fun h' => hK (h.symm.trans h')

theorem eof_prefix : TK.prefixParselet .EndOfFile = .eof := by decide +kernel
theorem eof_infix : TK.infixParselet .EndOfFile = .assertFalse := by decide +kernel
theorem eof_op : TK.infixOp .EndOfFile = .infix .CodeParser_InternalInvalid := by decide +kernel
theorem infix_valid : ∀ k : TK, (match k.infixParselet with | .infix _ op => decide (op ≠ .CodeParser_InternalInvalid) | _ => true) = true :=
  Props.forall_of_all (by decide +kernel)

theorem prefix_ne {k : Tok} {q : PrefixParselet} (h : k.kind.prefixParselet = q) (hq : q ≠ .eof) : k.kind ≠ .EndOfFile :=
  fun h' => by rw [h', eof_prefix] at h; exact hq h.symm

theorem infix_ne {k : Tok} {q : InfixParselet} (h : k.kind.infixParselet = q) (hq : q ≠ .assertFalse) : k.kind ≠ .EndOfFile :=
  fun h' => by rw [h', eof_infix] at h; exact hq h.symm

section
variable {E : Env} {Q : St → St → List Ev → Prop} {z : St} {rc : GroupOp → List Cst → Except Err (List Cst)}
  {rec : Job → CodeParser.P Unit} {rec' : Job → P Unit}

/-- The recursive calls compare. -/
def RecFits (E : Env) (Q : St → St → List Ev → Prop) (z : St) (rec : Job → CodeParser.P Unit) (rec' : Job → P Unit) : Prop :=
  ∀ j, JobFits E.cfg z j → SimS E.cfg Q z Eq (rec j) (rec' j)

/-- A step that does not read and gives nothing. -/
theorem SimS.then {m : CodeParser.P Unit} {m' : P Unit} {β : Type} {f : Unit → CodeParser.P β} {f' : Unit → P β} {rb : β → β → Prop} (L : Law E Q)
    (h : SimS E.cfg Q z Eq m m') (hf : SimS E.cfg Q z rb (f ()) (f' ())) : SimS E.cfg Q z rb (m >>= f) (m' >>= f') :=
  SimS.bind L h fun _ _ _ => hf

macro "still" : tactic => `(tactic| first
  | exact Silent.sim ‹_› pushNode_silent
  | exact Silent.sim ‹_› pushTok_silent
  | exact Silent.sim ‹_› pushTrivia_silent
  | exact Silent.sim ‹_› pushContext_silent
  | exact Silent.sim ‹_› setPrecedence_silent
  | exact Silent.sim ‹_› pushGroup_silent
  | exact Silent.sim ‹_› reduceNode_silent
  | exact Silent.sim ‹_› reduceGroup_silent
  | exact Silent.sim ‹_› reduceCall_silent
  | exact Silent.sim ‹_› reduceUnterminated_silent
  | exact Silent.sim ‹_› checkColonLhs_silent
  | exact Silent.sim ‹_› infixPrec_silent
  | exact Silent.sim ‹_› popNode_silent
  | exact Silent.sim ‹_› assertQuiescent_silent)

/-- Adding to a comparison what the reader without issues gives. -/
theorem SimM.also {m : CodeParser.M Tok} {m' : M Tok} (h : SimM E.cfg Q z (SameTok E.cfg z) m m')
    (hw : ∀ s k t, WF s → s.eof = false → m s = .ok (k, t) → k.kind ≠ .EndOfFile) :
    SimM E.cfg Q z (fun k j => SameTok E.cfg z k j ∧ k.kind ≠ .EndOfFile) m m' := by
  intro s s' hs hp
  have h1 := h s s' hs hp
  have hk := fun k t => hw s k t (hs.wf hp.pos.wf) (hs.same.eof.trans hp.eof)
  rcases h2 : m s with e | ⟨a, t⟩ <;> rcases h3 : m' s' with e' | ⟨a', t', es⟩ <;> rw [h2, h3] at h1
  · exact h1
  · exact h1
  · exact h1
  · exact ⟨⟨h1.1, hk _ _ h2⟩, h1.2⟩

theorem peekTag_ne (L : Law E Q) : SimM E.cfg Q z (fun k j => SameTok E.cfg z k j ∧ k.kind ≠ .EndOfFile)
    (CodeParser.peekTokenTag E.cfg) (peekTokenTag E) := by
  refine (peekTag_sim L).also fun s k t hs he h => ?_
  have h1 := peekTokenTag_wp (cfg := E.cfg) hs he
  unfold wp at h1
  rw [h] at h1
  exact h1.notEof

theorem peekFile_ne (L : Law E Q) : SimM E.cfg Q z (fun k j => SameTok E.cfg z k j ∧ k.kind ≠ .EndOfFile)
    (CodeParser.peekTokenFile E.cfg) (peekTokenFile E) := by
  refine (peekFile_sim L).also fun s k t hs he h => ?_
  have h1 := peekTokenFile_wp (cfg := E.cfg) hs he
  unfold wp at h1
  rw [h] at h1
  exact h1.notEof

/-- File names are not the end of the text. -/
theorem eatTriviaFile_ne (L : Law E Q) :
    SimS E.cfg Q z (fun j j' => SameTok E.cfg z j j' ∧ j.kind ≠ .EndOfFile) (CodeParser.eatTriviaFile ⟨E.cfg, rc⟩) (eatTriviaFile ⟨E, rc⟩) := by
  have h0 : SimM E.cfg Q z (fun r r' => SameToks E.cfg z r r' ∧ r.2.kind ≠ .EndOfFile) (CodeParser.eatFileM E.cfg) (eatFileM E) := by
    unfold CodeParser.eatFileM eatFileM
    refine SimM.loop L (AllFit E.cfg z) ?_ ⟨rfl, fun _ h => by cases h⟩
    intro ts ts' hts
    refine SimM.bind L (peekFile_ne L) ?_
    rintro k _ ⟨⟨rfl, hk⟩, hne⟩
    refine SimM.ite (fun h => ?_) (fun _ => ?_)
    · refine SimM.bind L (skipM_sim L hk hne) ?_
      rintro _ _ -
      exact SimM.pure L (.inl (hts.snoc hk))
    · obtain ⟨rfl, hts⟩ := hts
      exact SimM.pure L (.inr ⟨⟨rfl, hts, hk⟩, hne⟩)
  unfold CodeParser.eatTriviaFile eatTriviaFile
  refine SimS.bind L h0.lift ?_
  rintro ⟨ts, k⟩ _ ⟨⟨rfl, h1, h2⟩, h3⟩
  exact SimS.bind L (Silent.sim L pushTrivia_silent) fun _ _ _ => SimS.pure L ⟨⟨rfl, h2⟩, h3⟩

variable (L : Law E Q) (hrec : RecFits E Q z rec rec')
include L hrec

theorem reduceClimb_sim {k : NodeKind} : SimS E.cfg Q z Eq (CodeParser.reduceClimb rec k) (reduceClimb rec' k) :=
  .then L (by still) (hrec _ trivial)

theorem climbRest_sim {ts : List Tok} {k : Tok} (hts : ∀ j ∈ ts, Fits E.cfg z j) (hk : Fits E.cfg z k) :
    SimS E.cfg Q z Eq (CodeParser.climbRest rec ts k) (climbRest rec' ts k) := by
  refine SimS.bind L (Silent.sim L infixPrec_silent) ?_
  rintro p _ rfl
  refine SimS.get L fun s s' hs => ?_
  rw [hs.top]
  refine SimS.ite (fun _ => triviaReset_sim L hts) (fun _ => ?_)
  exact .then L (by still) (.then L (by still) (hrec _ hk))

theorem climb_sim : SimS E.cfg Q z Eq (CodeParser.climb ⟨E.cfg, rc⟩ rec) (climb ⟨E, rc⟩ rec') := by
  refine SimS.bind L (currentTokenNTN_sim L) ?_
  rintro ⟨ts, k⟩ _ ⟨rfl, hts, hk⟩
  refine SimS.bind L (processImplicitTimes_sim L hk) ?_
  rintro j _ ⟨⟨rfl, hj⟩, -⟩
  exact climbRest_sim L hrec hts hj

theorem pushClimb_sim {c : Cst} : SimS E.cfg Q z Eq (CodeParser.pushClimb rec c) (pushClimb rec' c) :=
  .then L (by still) (hrec _ trivial)

theorem operand_sim : SimS E.cfg Q z Eq (CodeParser.operand ⟨E.cfg, rc⟩ rec) (operand ⟨E, rc⟩ rec') := by
  refine SimS.bind L (eatTrivia_sim L) ?_
  rintro k _ ⟨rfl, hk⟩
  exact hrec _ hk

/-! ### Prefix parselets -/

theorem leafPrefix_sim {k : Tok} (hk : Fits E.cfg z k) (hne : k.kind ≠ .EndOfFile) :
    SimS E.cfg Q z Eq (CodeParser.leafPrefix rec k) (leafPrefix rec' k) :=
  .then L (pushNext_sim L hk hne) (hrec _ trivial)

omit hrec in
theorem errorPrefix_sim {k : Tok} (hk : Fits E.cfg z k) : SimS E.cfg Q z Eq (CodeParser.errorPrefix k) (errorPrefix k) :=
  .ite (fun h => pushNext_sim L hk (kind_ne h (by decide))) (fun _ => SimS.panic)

omit hrec in
theorem closerPrefix_sim {k : Tok} : SimS E.cfg Q z Eq (CodeParser.closerPrefix ⟨E.cfg, rc⟩ k) (closerPrefix ⟨E, rc⟩ k) := by
  refine .ite (fun h => ?_) (fun _ => SimS.panic)
  refine SimS.get L fun s s' hs => ?_
  rw [hs.missing]
  exact .then L (by still) (SimS.bind L (peekP_sim L) fun _ _ _ => SimS.pure L rfl)

omit hrec in
theorem toplevelCloser_sim {k : Tok} (hk : Fits E.cfg z k) : SimS E.cfg Q z Eq (CodeParser.toplevelCloser k) (toplevelCloser k) :=
  .ite (fun h => .then L (by still) (skipP_sim L hk (kind_ne h (by decide)))) (fun _ => SimS.panic)

omit hrec in
theorem eofPrefix_sim {k : Tok} : SimS E.cfg Q z Eq (CodeParser.eofPrefix k) (eofPrefix k) := by
  refine SimS.get L fun s s' hs => ?_
  rw [hs.missing]
  still

omit hrec in
theorem unsupportedPrefix_sim {k : Tok} (hk : Fits E.cfg z k) (hne : k.kind ≠ .EndOfFile) :
    SimS E.cfg Q z Eq (CodeParser.unsupportedPrefix k) (unsupportedPrefix k) :=
  .then L (by still) (skipP_sim L hk hne)

theorem commaPrefix_sim {k : Tok} : SimS E.cfg Q z Eq (CodeParser.commaPrefix rec k) (commaPrefix rec' k) := by
  refine SimS.get L fun s s' hs => ?_
  rw [hs.top]
  exact .then L (by still) (hrec _ trivial)

theorem unhandledPrefix_sim {k : Tok} (hk : Fits E.cfg z k) :
    SimS E.cfg Q z Eq (CodeParser.unhandledPrefix ⟨E.cfg, rc⟩ rec k) (unhandledPrefix ⟨E, rc⟩ rec' k) := by
  refine .ite (fun _ => SimS.panic) (fun _ => ?_)
  refine .then L (by still) (SimS.bind L (peekP_sim L) fun _ _ _ => SimS.bind L (Silent.sim L infixPrec_silent) ?_)
  rintro p _ rfl
  refine SimS.get L fun s s' hs => ?_
  rw [hs.top]
  exact SimS.ite (fun _ => SimS.pure L rfl) (fun _ => .then L (by still) (hrec _ hk))

omit hrec in
theorem parseUnder_sim {bop : CompoundOp} {k : Tok} (hk : Fits E.cfg z k) (hne : k.kind ≠ .EndOfFile) :
    SimS E.cfg Q z Eq (CodeParser.parseUnder ⟨E.cfg, rc⟩ bop k) (parseUnder ⟨E, rc⟩ bop k) := by
  refine .then L (skipP_sim L hk hne) (SimS.bind L (peekP_sim L) ?_)
  rintro j _ ⟨rfl, hj⟩
  refine SimS.ite (fun h => ?_) (fun _ => SimS.pure L rfl)
  refine .then L (skipP_sim L hj ?_) (SimS.pure L rfl)
  rcases h with h | h <;> exact kind_of h (by decide)

theorem underPrefix_sim {bop : CompoundOp} {k : Tok} (hk : Fits E.cfg z k) (hne : k.kind ≠ .EndOfFile) :
    SimS E.cfg Q z Eq (CodeParser.underPrefix ⟨E.cfg, rc⟩ rec bop k) (underPrefix ⟨E, rc⟩ rec' bop k) := by
  refine SimS.bind L (parseUnder_sim L hk hne) ?_
  rintro c _ rfl
  exact pushClimb_sim L hrec

theorem symbolUnder_sim {k j : Tok} {bop pbop : CompoundOp} (hj : Fits E.cfg z j) (hne : j.kind ≠ .EndOfFile) :
    SimS E.cfg Q z Eq (CodeParser.symbolUnder ⟨E.cfg, rc⟩ rec k bop pbop j) (symbolUnder ⟨E, rc⟩ rec' k bop pbop j) := by
  refine SimS.bind L (parseUnder_sim L hj hne) ?_
  rintro c _ rfl
  exact pushClimb_sim L hrec

theorem symbolRest_sim {k j : Tok} (hj : Fits E.cfg z j) :
    SimS E.cfg Q z Eq (CodeParser.symbolRest ⟨E.cfg, rc⟩ rec k j) (symbolRest ⟨E, rc⟩ rec' k j) := by
  unfold CodeParser.symbolRest symbolRest
  generalize hkj : j.kind = K
  split
  · exact symbolUnder_sim L hrec hj (kind_of hkj (by decide))
  · exact symbolUnder_sim L hrec hj (kind_of hkj (by decide))
  · exact symbolUnder_sim L hrec hj (kind_of hkj (by decide))
  · exact .then L (skipP_sim L hj (kind_of hkj (by decide))) (pushClimb_sim L hrec)
  · next h1 h2 h3 h4 =>
    split
    · exact absurd rfl h1
    · exact absurd rfl h2
    · exact absurd rfl h3
    · exact absurd rfl h4
    · exact pushClimb_sim L hrec

theorem symbolPrefix_sim {k : Tok} (hk : Fits E.cfg z k) (hne : k.kind ≠ .EndOfFile) :
    SimS E.cfg Q z Eq (CodeParser.symbolPrefix ⟨E.cfg, rc⟩ rec k) (symbolPrefix ⟨E, rc⟩ rec' k) := by
  refine .then L (skipP_sim L hk hne) (SimS.bind L (peekP_sim L) ?_)
  rintro j _ ⟨rfl, hj⟩
  exact symbolRest_sim L hrec hj

theorem slotPrefix_sim {pol : Pol} {op : CompoundOp} {str : Bool} {k : Tok} (hk : Fits E.cfg z k) (hne : k.kind ≠ .EndOfFile) :
    SimS E.cfg Q z Eq (CodeParser.slotPrefix ⟨E.cfg, rc⟩ rec pol op str k) (slotPrefix ⟨E, rc⟩ rec' pol op str k) := by
  refine .then L (skipP_sim L hk hne) (SimS.bind L (peekWithP_sim L) ?_)
  rintro j _ ⟨rfl, hj⟩
  refine SimS.ite (fun h => ?_) (fun _ => pushClimb_sim L hrec)
  refine .then L (skipP_sim L hj ?_) (pushClimb_sim L hrec)
  rcases h with h | ⟨-, h⟩ <;> exact kind_of h (by decide)

theorem opPrefix_sim {p : Nat} {op : PrefixOp} {k : Tok} (hk : Fits E.cfg z k) (hne : k.kind ≠ .EndOfFile) :
    SimS E.cfg Q z Eq (CodeParser.opPrefix ⟨E.cfg, rc⟩ rec p op k) (opPrefix ⟨E, rc⟩ rec' p op k) :=
  .then L (pushNext_sim L hk hne) (.then L (by still) (.then L (operand_sim L hrec) (reduceClimb_sim L hrec)))

theorem groupPrefix_sim {opener : TK} {op : GroupOp} {k : Tok} (hk : Fits E.cfg z k) (hne : k.kind ≠ .EndOfFile) :
    SimS E.cfg Q z Eq (CodeParser.groupPrefix rec opener op k) (groupPrefix rec' opener op k) := by
  unfold CodeParser.groupPrefix groupPrefix
  generalize h1 : groupOpenerToCloser opener = c1
  generalize groupOpenerToCloser k.kind = c2
  rcases c1 with _ | c1
  · exact SimS.panic
  · rcases c2 with _ | c2
    · exact SimS.panic
    · exact .then L (by still) (.then L (pushNext_sim L hk hne) (.then L (by still) (hrec _ ⟨_, h1⟩)))

theorem semiSemiPrefix_sim {k : Tok} (hk : Fits E.cfg z k) :
    SimS E.cfg Q z Eq (CodeParser.semiSemiPrefix rec k) (semiSemiPrefix rec' k) :=
  .then L (by still) (.then L (by still) (hrec _ hk))

theorem integral1_sim {op1 : PrefixBinaryOp} {op2 : PrefixOp} :
    SimS E.cfg Q z Eq (CodeParser.integral1 ⟨E.cfg, rc⟩ rec op1 op2) (integral1 ⟨E, rc⟩ rec' op1 op2) := by
  refine SimS.bind L (currentToken_sim L) ?_
  rintro ⟨ts, k⟩ _ ⟨rfl, hts, hk⟩
  refine SimS.ite (fun h => ?_) (fun h => ?_)
  · exact .then L (by still) (.then L (hrec _ hk) (reduceClimb_sim L hrec))
  · exact .then L (triviaReset_sim L hts) (reduceClimb_sim L hrec)

theorem integralPrefix_sim {op1 : PrefixBinaryOp} {op2 : PrefixOp} {k : Tok} (hk : Fits E.cfg z k) (hne : k.kind ≠ .EndOfFile) :
    SimS E.cfg Q z Eq (CodeParser.integralPrefix ⟨E.cfg, rc⟩ rec op1 op2 k) (integralPrefix ⟨E, rc⟩ rec' op1 op2 k) := by
  refine .then L (pushNext_sim L hk hne) (.then L (by still) (SimS.bind L (eatTrivia_sim L) ?_))
  rintro j _ ⟨rfl, hj⟩
  refine SimS.ite (fun h => ?_) (fun h => ?_)
  · exact .then L (by still) (integral1_sim L hrec)
  · exact .then L (hrec _ hj) (integral1_sim L hrec)

theorem lessLessPrefix_sim {k : Tok} (hk : Fits E.cfg z k) (hne : k.kind ≠ .EndOfFile) :
    SimS E.cfg Q z Eq (CodeParser.lessLessPrefix ⟨E.cfg, rc⟩ rec k) (lessLessPrefix ⟨E, rc⟩ rec' k) := by
  refine .then L (pushNext_sim L hk hne) (.then L (by still) (SimS.bind L (eatTriviaFile_ne L) ?_))
  rintro j _ ⟨⟨rfl, hj⟩, hjn⟩
  exact .then L (pushNext_sim L hj hjn) (reduceClimb_sim L hrec)

theorem parsePrefix_sim {k : Tok} (hk : Fits E.cfg z k) :
    SimS E.cfg Q z Eq (CodeParser.parsePrefix ⟨E.cfg, rc⟩ rec k) (parsePrefix ⟨E, rc⟩ rec' k) := by
  unfold CodeParser.parsePrefix parsePrefix
  generalize hq : k.kind.prefixParselet = q
  have hne : q ≠ .eof → k.kind ≠ .EndOfFile := prefix_ne hq
  cases q with
  | leaf => exact leafPrefix_sim L hrec hk (hne nofun)
  | error => exact errorPrefix_sim L hk
  | closer => exact closerPrefix_sim L
  | eof => exact eofPrefix_sim L
  | unsupported => exact unsupportedPrefix_sim L hk (hne nofun)
  | comma => exact commaPrefix_sim L hrec
  | unhandled => exact unhandledPrefix_sim L hrec hk
  | symbol => exact symbolPrefix_sim L hrec hk (hne nofun)
  | underDot => exact leafPrefix_sim L hrec hk (hne nofun)
  | hash => exact slotPrefix_sim L hrec hk (hne nofun)
  | hashHash => exact slotPrefix_sim L hrec hk (hne nofun)
  | percent => exact slotPrefix_sim L hrec hk (hne nofun)
  | semiSemi => exact semiSemiPrefix_sim L hrec hk
  | lessLess => exact lessLessPrefix_sim L hrec hk (hne nofun)
  | op p op => exact opPrefix_sim L hrec hk (hne nofun)
  | group opener op => exact groupPrefix_sim L hrec hk (hne nofun)
  | under bop _ => exact underPrefix_sim L hrec hk (hne nofun)
  | integral op1 op2 => exact integralPrefix_sim L hrec hk (hne nofun)

/-! ### Infix parselets -/

theorem binaryInfix_sim {op : BinaryOp} {k : Tok} (hk : Fits E.cfg z k) (hne : k.kind ≠ .EndOfFile) :
    SimS E.cfg Q z Eq (CodeParser.binaryInfix ⟨E.cfg, rc⟩ rec op k) (binaryInfix ⟨E, rc⟩ rec' op k) :=
  .then L (pushNext_sim L hk hne) (.then L (operand_sim L hrec) (reduceClimb_sim L hrec))

theorem loopInfix_sim {j : Job} {k : Tok} (hk : Fits E.cfg z k) (hne : k.kind ≠ .EndOfFile) (hj : JobFits E.cfg z j) :
    SimS E.cfg Q z Eq (CodeParser.loopInfix ⟨E.cfg, rc⟩ rec j k) (loopInfix ⟨E, rc⟩ rec' j k) :=
  .then L (pushNext_sim L hk hne) (.then L (operand_sim L hrec) (hrec _ hj))

theorem postfixInfix_sim {op : PostfixOp} {k : Tok} (hk : Fits E.cfg z k) (hne : k.kind ≠ .EndOfFile) :
    SimS E.cfg Q z Eq (CodeParser.postfixInfix rec op k) (postfixInfix rec' op k) :=
  .then L (pushNext_sim L hk hne) (reduceClimb_sim L hrec)

theorem callInfix_sim {opener : TK} {op : GroupOp} {k : Tok} (hk : Fits E.cfg z k) (hne : k.kind ≠ .EndOfFile) :
    SimS E.cfg Q z Eq (CodeParser.callInfix rec opener op k) (callInfix rec' opener op k) :=
  .then L (by still) (.then L (groupPrefix_sim L hrec hk hne) (.then L (by still) (hrec _ trivial)))

theorem tildeRest_sim : SimS E.cfg Q z Eq (CodeParser.tildeRest ⟨E.cfg, rc⟩ rec) (tildeRest ⟨E, rc⟩ rec') := by
  refine SimS.bind L (currentToken_sim L) ?_
  rintro ⟨ts, k⟩ _ ⟨rfl, hts, hk⟩
  refine SimS.ite (fun h => ?_) (fun h => ?_)
  · exact .then L (commitNext_sim L hk (kind_of h (by decide))) (.then L (operand_sim L hrec) (reduceClimb_sim L hrec))
  · exact .then L (triviaReset_sim L hts) (reduceClimb_sim L hrec)

theorem tildeInfix_sim {k : Tok} (hk : Fits E.cfg z k) (hne : k.kind ≠ .EndOfFile) :
    SimS E.cfg Q z Eq (CodeParser.tildeInfix ⟨E.cfg, rc⟩ rec k) (tildeInfix ⟨E, rc⟩ rec' k) :=
  .then L (pushNext_sim L hk hne) (.then L (operand_sim L hrec) (tildeRest_sim L hrec))

theorem colonRest_sim {l : ColonLHS} {k : Tok} (hk : Fits E.cfg z k) :
    SimS E.cfg Q z Eq (CodeParser.colonRest rec l k) (colonRest rec' l k) := by
  cases l <;> exact .then L (by still) (.then L (hrec _ hk) (reduceClimb_sim L hrec))

theorem colonInfix_sim {k : Tok} (hk : Fits E.cfg z k) (hne : k.kind ≠ .EndOfFile) :
    SimS E.cfg Q z Eq (CodeParser.colonInfix ⟨E.cfg, rc⟩ rec k) (colonInfix ⟨E, rc⟩ rec' k) := by
  refine SimS.bind L (Silent.sim L checkColonLhs_silent) ?_
  rintro l _ rfl
  refine .then L (pushNext_sim L hk hne) (SimS.bind L (eatTrivia_sim L) ?_)
  rintro j _ ⟨rfl, hj⟩
  exact colonRest_sim L hrec hj

theorem equalRest_sim {k1 k2 : NodeKind} : SimS E.cfg Q z Eq (CodeParser.equalRest ⟨E.cfg, rc⟩ rec k1 k2) (equalRest ⟨E, rc⟩ rec' k1 k2) := by
  refine SimS.bind L (eatTrivia_sim L) ?_
  rintro j _ ⟨rfl, hj⟩
  refine SimS.ite (fun h => ?_) (fun h => ?_)
  · exact .then L (pushNext_sim L hj (kind_of h (by decide))) (reduceClimb_sim L hrec)
  · exact .then L (hrec _ hj) (reduceClimb_sim L hrec)

theorem equalInfix_sim {k : Tok} (hk : Fits E.cfg z k) (hne : k.kind ≠ .EndOfFile) :
    SimS E.cfg Q z Eq (CodeParser.equalInfix ⟨E.cfg, rc⟩ rec k) (equalInfix ⟨E, rc⟩ rec' k) :=
  .then L (pushNext_sim L hk hne) (equalRest_sim L hrec)

theorem slashColonRest_sim : SimS E.cfg Q z Eq (CodeParser.slashColonRest ⟨E.cfg, rc⟩ rec) (slashColonRest ⟨E, rc⟩ rec') := by
  refine SimS.bind L (currentToken_sim L) ?_
  rintro ⟨ts, k⟩ _ ⟨rfl, hts, hk⟩
  refine SimS.ite (fun h => ?_) (fun h => SimS.ite (fun h => ?_) (fun h => ?_))
  · exact .then L (by still) (.then L (commitNext_sim L hk (kind_of h (by decide))) (equalRest_sim L hrec))
  · exact .then L (by still) (.then L (commitNext_sim L hk (kind_of h (by decide))) (.then L (operand_sim L hrec) (reduceClimb_sim L hrec)))
  · exact .then L (triviaReset_sim L hts) (reduceClimb_sim L hrec)

theorem slashColonInfix_sim {k : Tok} (hk : Fits E.cfg z k) (hne : k.kind ≠ .EndOfFile) :
    SimS E.cfg Q z Eq (CodeParser.slashColonInfix ⟨E.cfg, rc⟩ rec k) (slashColonInfix ⟨E, rc⟩ rec' k) :=
  .then L (pushNext_sim L hk hne) (.then L (operand_sim L hrec) (slashColonRest_sim L hrec))

theorem commaOperand_sim : SimS E.cfg Q z Eq (CodeParser.commaOperand ⟨E.cfg, rc⟩ rec) (commaOperand ⟨E, rc⟩ rec') := by
  refine SimS.bind L (eatTrivia_sim L) ?_
  rintro j _ ⟨rfl, hj⟩
  exact SimS.ite (fun h => by still) (fun h => hrec _ hj)

theorem commaInfix_sim {k : Tok} (hk : Fits E.cfg z k) (hne : k.kind ≠ .EndOfFile) :
    SimS E.cfg Q z Eq (CodeParser.commaInfix ⟨E.cfg, rc⟩ rec k) (commaInfix ⟨E, rc⟩ rec' k) :=
  .then L (pushNext_sim L hk hne) (.then L (commaOperand_sim L hrec) (hrec _ trivial))

theorem semiOperand_sim : SimS E.cfg Q z Eq (CodeParser.semiOperand ⟨E.cfg, rc⟩ rec) (semiOperand ⟨E, rc⟩ rec') := by
  refine SimS.bind L (eatTriviaNTN_sim L) ?_
  rintro j _ ⟨rfl, hj⟩
  refine SimS.ite (fun h => ?_) (fun h => SimS.ite (fun h => ?_) (fun h => ?_))
  · exact .then L (by still) (hrec _ trivial)
  · exact .then L (hrec _ hj) (hrec _ trivial)
  · exact .then L (by still) (reduceClimb_sim L hrec)

theorem semiInfix_sim {k : Tok} (hk : Fits E.cfg z k) (hne : k.kind ≠ .EndOfFile) :
    SimS E.cfg Q z Eq (CodeParser.semiInfix ⟨E.cfg, rc⟩ rec k) (semiInfix ⟨E, rc⟩ rec' k) :=
  .then L (pushNext_sim L hk hne) (semiOperand_sim L hrec)

theorem colonColonTag_sim : SimS E.cfg Q z Eq (CodeParser.colonColonTag ⟨E.cfg, rc⟩ rec) (colonColonTag ⟨E, rc⟩ rec') := by
  refine SimS.bind L (peekTag_ne L).lift ?_
  rintro j _ ⟨⟨rfl, hj⟩, hjn⟩
  exact .then L (pushNext_sim L hj hjn) (hrec _ trivial)

theorem colonColonInfix_sim {k : Tok} (hk : Fits E.cfg z k) (hne : k.kind ≠ .EndOfFile) :
    SimS E.cfg Q z Eq (CodeParser.colonColonInfix ⟨E.cfg, rc⟩ rec k) (colonColonInfix ⟨E, rc⟩ rec' k) :=
  .then L (pushNext_sim L hk hne) (colonColonTag_sim L hrec)

theorem putInfix_sim {op : BinaryOp} {k : Tok} (hk : Fits E.cfg z k) (hne : k.kind ≠ .EndOfFile) :
    SimS E.cfg Q z Eq (CodeParser.putInfix ⟨E.cfg, rc⟩ rec op k) (putInfix ⟨E, rc⟩ rec' op k) := by
  refine .then L (pushNext_sim L hk hne) (SimS.bind L (eatTriviaFile_ne L) ?_)
  rintro j _ ⟨⟨rfl, hj⟩, hjn⟩
  exact .then L (pushNext_sim L hj hjn) (reduceClimb_sim L hrec)

theorem span3_sim {ts : List Tok} {k : Tok} (hts : ∀ j ∈ ts, Fits E.cfg z j) (hk : Fits E.cfg z k) (hne : k.kind ≠ .EndOfFile) :
    SimS E.cfg Q z Eq (CodeParser.span3 ⟨E.cfg, rc⟩ rec ts k) (span3 ⟨E, rc⟩ rec' ts k) := by
  refine .then L (skipP_sim L hk hne) (SimS.bind L (currentTokenNTN_sim L) ?_)
  rintro ⟨ts4, k4⟩ _ ⟨rfl, hts4, hk4⟩
  refine SimS.ite (fun h => ?_) (fun h => ?_)
  · exact .then L (triviaReset_sim L hts4) (.then L (reset_sim L hk) (.then L (triviaReset_sim L hts) (reduceClimb_sim L hrec)))
  · exact .then L (by still) (.then L (by still) (.then L (by still) (.then L (hrec _ hk4) (reduceClimb_sim L hrec))))

theorem span2_sim : SimS E.cfg Q z Eq (CodeParser.span2 ⟨E.cfg, rc⟩ rec) (span2 ⟨E, rc⟩ rec') := by
  refine SimS.bind L (currentTokenNTN_sim L) ?_
  rintro ⟨ts, k⟩ _ ⟨rfl, hts, hk⟩
  refine SimS.ite (fun h => ?_) (fun h => ?_)
  · exact .then L (triviaReset_sim L hts) (reduceClimb_sim L hrec)
  · refine span3_sim L hrec hts hk ?_
    intro hh
    apply h
    rw [hh]
    decide

theorem spanImplicit_sim {k : Tok} (hk : Fits E.cfg z k) (hne : k.kind ≠ .EndOfFile) :
    SimS E.cfg Q z Eq (CodeParser.spanImplicit ⟨E.cfg, rc⟩ rec k) (spanImplicit ⟨E, rc⟩ rec' k) := by
  refine .then L (skipP_sim L hk hne) (SimS.bind L (currentTokenNTN_sim L) ?_)
  rintro ⟨ts4, k4⟩ _ ⟨rfl, hts4, hk4⟩
  refine SimS.ite (fun h => ?_) (fun h => ?_)
  · exact .then L (triviaReset_sim L hts4) (.then L (reset_sim L hk) (reduceClimb_sim L hrec))
  · exact .then L (by still) (.then L (by still) (.then L (hrec _ hk4) (reduceClimb_sim L hrec)))

theorem semiSemiInfix_sim {k : Tok} (hk : Fits E.cfg z k) (hne : k.kind ≠ .EndOfFile) :
    SimS E.cfg Q z Eq (CodeParser.semiSemiInfix ⟨E.cfg, rc⟩ rec k) (semiSemiInfix ⟨E, rc⟩ rec' k) := by
  refine .then L (pushNext_sim L hk hne) (SimS.bind L (eatTriviaNTN_sim L) ?_)
  rintro j _ ⟨rfl, hj⟩
  refine SimS.ite (fun h => ?_) (fun h => SimS.ite (fun h => ?_) (fun h => ?_))
  · exact .then L (by still) (reduceClimb_sim L hrec)
  · exact .then L (hrec _ hj) (span2_sim L hrec)
  · exact .then L (by still) (spanImplicit_sim L hrec hj (kind_of (Classical.not_not.mp h) (by decide)))

theorem parseInfix_sim {k : Tok} (hk : Fits E.cfg z k) :
    SimS E.cfg Q z Eq (CodeParser.parseInfix ⟨E.cfg, rc⟩ rec k) (parseInfix ⟨E, rc⟩ rec' k) := by
  unfold CodeParser.parseInfix parseInfix
  have hv := infix_valid k.kind
  generalize hq : k.kind.infixParselet = q at hv
  have hne : q ≠ .assertFalse → k.kind ≠ .EndOfFile := infix_ne hq
  cases q with
  | assertFalse => exact SimS.panic
  | toplevelNewline => exact SimS.panic
  | implicitTimes => exact SimS.panic
  | differentialD => exact SimS.panic
  | times => exact loopInfix_sim L hrec hk (hne nofun) trivial
  | semi => exact semiInfix_sim L hrec hk (hne nofun)
  | comma => exact commaInfix_sim L hrec hk (hne nofun)
  | semiSemi => exact semiSemiInfix_sim L hrec hk (hne nofun)
  | tilde => exact tildeInfix_sim L hrec hk (hne nofun)
  | colon => exact colonInfix_sim L hrec hk (hne nofun)
  | slashColon => exact slashColonInfix_sim L hrec hk (hne nofun)
  | equal => exact equalInfix_sim L hrec hk (hne nofun)
  | colonEqual => exact binaryInfix_sim L hrec hk (hne nofun)
  | colonColon => exact colonColonInfix_sim L hrec hk (hne nofun)
  | greaterGreater => exact putInfix_sim L hrec hk (hne nofun)
  | greaterGreaterGreater => exact putInfix_sim L hrec hk (hne nofun)
  | binary _ op => exact binaryInfix_sim L hrec hk (hne nofun)
  | «infix» _ op => exact loopInfix_sim L hrec hk (hne nofun) (of_decide_eq_true (p := op ≠ .CodeParser_InternalInvalid) hv)
  | «postfix» _ op => exact postfixInfix_sim L hrec hk (hne nofun)
  | call opener op => exact callInfix_sim L hrec hk (hne nofun)

/-! ### Loops -/

theorem infixLoop_sim {op : InfixOp} (hop : op ≠ .CodeParser_InternalInvalid) :
    SimS E.cfg Q z Eq (CodeParser.infixLoop ⟨E.cfg, rc⟩ rec op) (infixLoop ⟨E, rc⟩ rec' op) := by
  refine SimS.bind L (currentToken_sim L) ?_
  rintro ⟨ts, k⟩ _ ⟨rfl, hts, hk⟩
  refine SimS.ite (fun h => ?_) (fun h => ?_)
  · exact .then L (triviaReset_sim L hts) (reduceClimb_sim L hrec)
  · refine .then L (commitNext_sim L hk ?_) (.then L (operand_sim L hrec) (hrec _ hop))
    intro hh
    apply h
    rw [hh, eof_op]
    intro h1
    injection h1 with h1
    exact hop h1.symm

omit hrec in
theorem timesToken_sim :
    SimS E.cfg Q z (SameToks E.cfg z) (CodeParser.timesToken ⟨E.cfg, rc⟩) (timesToken ⟨E, rc⟩) := by
  refine SimS.bind L (currentToken_sim L) ?_
  rintro ⟨ts, k⟩ _ ⟨rfl, hts, hk⟩
  refine SimS.bind L (processImplicitTimes_sim L hk) ?_
  rintro j _ ⟨⟨rfl, hj⟩, -⟩
  refine SimS.ite (fun h => ?_) (fun h => SimS.pure L ⟨rfl, hts, hj⟩)
  refine .then L (triviaReset_sim L hts) (SimS.bind L (currentTokenNTN_sim L) ?_)
  rintro ⟨ts2, k2⟩ _ ⟨rfl, hts2, hk2⟩
  refine SimS.bind L (processImplicitTimes_sim L hk2) ?_
  rintro j _ ⟨⟨rfl, hj⟩, -⟩
  exact SimS.pure L ⟨rfl, hts2, hj⟩

theorem timesLoop_sim : SimS E.cfg Q z Eq (CodeParser.timesLoop ⟨E.cfg, rc⟩ rec) (timesLoop ⟨E, rc⟩ rec') := by
  refine SimS.bind L (timesToken_sim L) ?_
  rintro ⟨ts, k⟩ _ ⟨rfl, hts, hk⟩
  refine SimS.ite (fun h => ?_) (fun h => ?_)
  · exact .then L (triviaReset_sim L hts) (reduceClimb_sim L hrec)
  · refine .then L (commitNext_sim L hk ?_) (.then L (operand_sim L hrec) (hrec _ trivial))
    intro hh
    apply h
    rw [hh, eof_op]
    decide

theorem commaLoop_sim : SimS E.cfg Q z Eq (CodeParser.commaLoop ⟨E.cfg, rc⟩ rec) (commaLoop ⟨E, rc⟩ rec') := by
  refine SimS.bind L (currentToken_sim L) ?_
  rintro ⟨ts, k⟩ _ ⟨rfl, hts, hk⟩
  refine SimS.ite (fun h => ?_) (fun h => ?_)
  · exact .then L (commitNext_sim L hk (kind_ne h (by decide))) (.then L (commaOperand_sim L hrec) (hrec _ trivial))
  · exact .then L (triviaReset_sim L hts) (by still)

theorem semiLoop_sim : SimS E.cfg Q z Eq (CodeParser.semiLoop ⟨E.cfg, rc⟩ rec) (semiLoop ⟨E, rc⟩ rec') := by
  refine SimS.bind L (currentToken_sim L) ?_
  rintro ⟨ts, k⟩ _ ⟨rfl, hts, hk⟩
  refine SimS.ite (fun h => ?_) (fun h => ?_)
  · exact .then L (commitNext_sim L hk (kind_of h (by decide))) (semiOperand_sim L hrec)
  · exact .then L (triviaReset_sim L hts) (reduceClimb_sim L hrec)

theorem colonColonLoop_sim : SimS E.cfg Q z Eq (CodeParser.colonColonLoop ⟨E.cfg, rc⟩ rec) (colonColonLoop ⟨E, rc⟩ rec') := by
  refine SimS.bind L (currentToken_sim L) ?_
  rintro ⟨ts, k⟩ _ ⟨rfl, hts, hk⟩
  refine SimS.ite (fun h => ?_) (fun h => ?_)
  · exact .then L (commitNext_sim L hk (kind_of h (by decide))) (colonColonTag_sim L hrec)
  · exact .then L (triviaReset_sim L hts) (reduceClimb_sim L hrec)

theorem groupLoop_sim {c : Closer} {op : GroupOp} (hc : ∃ k, groupOpenerToCloser k = some c) :
    SimS E.cfg Q z Eq (CodeParser.groupLoop ⟨E.cfg, rc⟩ rec c op) (groupLoop ⟨E, rc⟩ rec' c op) := by
  refine SimS.bind L (currentToken_sim L) ?_
  rintro ⟨ts, k⟩ _ ⟨rfl, hts, hk⟩
  refine SimS.ite (fun h => ?_) (fun h => SimS.ite (fun h => ?_) (fun h => ?_))
  · obtain ⟨k0, hc⟩ := hc
    rw [← h] at hc
    exact .then L (commitNext_sim L hk (closer_kinds _ (opens_facts _ _ hc)).1) (.then L (by still) (hrec _ trivial))
  · refine SimS.get L fun s s' hs => ?_
    have : checkGroup s' (tokenToCloser k.kind) = checkGroup s (tokenToCloser k.kind) := by unfold checkGroup; rw [hs.groups]
    rw [this]
    refine SimS.ite (fun h => ?_) (fun h => ?_)
    · exact .then L (triviaReset_sim L hts) (by still)
    · exact .then L (by still) (.then L (toplevelCloser_sim L hk) (hrec _ hc))
  · refine .then L (by still) (SimS.ite (fun h => Silent.sim L reduceUnterminated_silent) (fun h => ?_))
    exact .then L (hrec _ hk) (hrec _ hc)

theorem step_sim {j : Job} (hj : JobFits E.cfg z j) : SimS E.cfg Q z Eq (CodeParser.step ⟨E.cfg, rc⟩ rec j) (step ⟨E, rc⟩ rec' j) := by
  cases j with
  | «prefix» t => exact parsePrefix_sim L hrec hj
  | climb => exact climb_sim L hrec
  | «infix» t => exact parseInfix_sim L hrec hj
  | groupLoop c op => exact groupLoop_sim L hrec hj
  | infixLoop op => exact infixLoop_sim L hrec hj
  | timesLoop => exact timesLoop_sim L hrec
  | commaLoop => exact commaLoop_sim L hrec
  | semiLoop => exact semiLoop_sim L hrec
  | colonColonLoop => exact colonColonLoop_sim L hrec

omit hrec in
theorem run_sim (n : Nat) : RecFits E Q z (CodeParser.run ⟨E.cfg, rc⟩ n) (run ⟨E, rc⟩ n) := by
  induction n with
  | zero => intro j _ s s' _ _; exact .inl rfl
  | succ n ih => intro j hj; exact step_sim L ih hj

omit hrec in
theorem parseItem_sim {k : Tok} (hk : Fits E.cfg z k) (hne : k.kind ≠ .EndOfFile) :
    SimS E.cfg Q z Eq (CodeParser.parseItem ⟨E.cfg, rc⟩ k) (parseItem ⟨E, rc⟩ k) := by
  have fin : SimS E.cfg Q z Eq (do let c ← CodeParser.popNode; CodeParser.assertQuiescent; pure c : CodeParser.P Cst)
      (do let c ← popNode; assertQuiescent; pure c : P Cst) := by
    refine SimS.bind L (Silent.sim L popNode_silent) ?_
    rintro c _ rfl
    exact .then L (by still) (SimS.pure L rfl)
  refine SimS.ite (fun h => ?_) (fun h => SimS.ite (fun h => ?_) (fun h => ?_))
  · exact .then L (skipP_sim L hk hne) (SimS.pure L rfl)
  · exact .then L (toplevelCloser_sim L hk) fin
  · refine SimS.get L fun s s' hs => ?_
    rw [hs.st.same.rest]
    exact .then L (run_sim L _ _ hk) fin

omit hrec in
theorem parseLoopN_sim (n : Nat) : ∀ cs, SimS E.cfg Q z Eq (CodeParser.parseLoopN ⟨E.cfg, rc⟩ n cs) (parseLoopN ⟨E, rc⟩ n cs) := by
  induction n with
  | zero => intro cs s s' _ _; exact .inl rfl
  | succ n ih =>
    intro cs
    refine SimS.bind L (peekP_sim L) ?_
    rintro k _ ⟨rfl, hk⟩
    refine SimS.ite (fun h => SimS.pure L rfl) (fun h => ?_)
    refine SimS.bind L (parseItem_sim L hk h) ?_
    rintro c _ rfl
    exact ih _

omit hrec in
theorem parseLoop_sim : SimS E.cfg Q z Eq (CodeParser.parseLoop ⟨E.cfg, rc⟩) (parseLoop ⟨E, rc⟩) := by
  intro s s' hs hp
  unfold CodeParser.parseLoop parseLoop
  rw [hs.st.same.rest]
  exact parseLoopN_sim L _ _ s s' hs hp

omit hrec in
theorem doParse_out (conv : Conv) (first : FirstLine) (bs : List UInt8) :
    OutS E.cfg Q (St.init conv bs) (St.init conv bs) Eq (CodeParser.doParse ⟨E.cfg, rc⟩ conv first bs) (doParse ⟨E, rc⟩ conv first bs) := by
  have hp := init_pos E.cfg conv bs
  exact SimS.then L (handleFirstLine_sim L).lift (parseLoop_sim L) _ _ ⟨rfl, rfl, rfl, .refl _⟩ ⟨hp, rfl, hp.col⟩

end
end CodeParser.Chk.Par
