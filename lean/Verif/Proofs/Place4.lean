import Verif.Proofs.Place3
/-!
Positions do not influence parsing: the recursive functions (helper lemmas).
-/
namespace CodeParser.Place
open Spec

/-- The same function with tokens that differ in their positions. -/
inductive SameJob : Job → Job → Prop
  | «prefix» {t t'} : SameTok t t' → SameJob (.prefix t) (.prefix t')
  | «infix» {t t'} : SameTok t t' → SameJob (.infix t) (.infix t')
  | same (j) : SameJob j j

section
variable {cfg : Cfg} {w : Nat} {hw : 0 < w} {rcv rcv' : GroupOp → List Cst → Except Err (List Cst)}
  {rec rec' : Job → P Unit} {t t' t2 t2' : Tok} {ts ts' : List Tok}

/-- The two environments. -/
local notation "envA" => PEnv.mk cfg rcv
local notation "envB" => PEnv.mk (wide cfg w hw) rcv'

/-- The recursive calls do the same. -/
def SameRec (rec rec' : Job → P Unit) : Prop := ∀ j j', SameJob j j' → QSim Eq (rec j) (rec' j')

theorem SameRec.j (hr : SameRec rec rec') (j : Job) : QSim Eq (rec j) (rec' j) := hr _ _ (.same j)
theorem SameRec.p (hr : SameRec rec rec') (h : SameTok t t') : QSim Eq (rec (.prefix t)) (rec' (.prefix t')) :=
  hr _ _ (.prefix h)
theorem SameRec.i (hr : SameRec rec rec') (h : SameTok t t') : QSim Eq (rec (.infix t)) (rec' (.infix t')) :=
  hr _ _ (.infix h)

theorem reduceClimb_sim (hr : SameRec rec rec') {k : NodeKind} : QSim Eq (reduceClimb rec k) (reduceClimb rec' k) :=
  QSim.bindE reduceNode_sim fun _ => hr.j _

theorem climbRest_sim (hr : SameRec rec rec') (hts : List.Forall₂ SameTok ts ts') (h : SameTok t t') :
    QSim Eq (climbRest rec ts t) (climbRest rec' ts' t') := by
  unfold climbRest
  rw [h.kind]
  refine QSim.bindE infixPrec_sim fun p => QSim.bind QSim.get fun s s' hs => ?_
  rw [hs.topPrec]
  refine QSim.ite (fun _ => triviaReset_sim hts) fun _ => ?_
  exact QSim.bindE pushContext_sim fun _ => QSim.bindE (pushTrivia_sim hts) fun _ => hr.i h

theorem climb_sim (hr : SameRec rec rec') : QSim Eq (climb envA rec) (climb envB rec') := by
  unfold climb
  exact QSim.bind currentTokenNTN_sim fun _ _ h => QSim.bind (processImplicitTimes_sim h.2) fun _ _ h' =>
    climbRest_sim hr h.1 h'

theorem pushClimb_sim (hr : SameRec rec rec') {c c' : Cst} (h : SameTree c c') :
    QSim Eq (pushClimb rec c) (pushClimb rec' c') := QSim.bindE (pushNode_sim h) fun _ => hr.j _

theorem operand_sim (hr : SameRec rec rec') : QSim Eq (operand envA rec) (operand envB rec') :=
  QSim.bind eatTrivia_sim fun _ _ h => hr.p h

/-! ### Prefix parselets -/

theorem leafPrefix_sim (hr : SameRec rec rec') (h : SameTok t t') : QSim Eq (leafPrefix rec t) (leafPrefix rec' t') :=
  QSim.bindE (pushNext_sim h) fun _ => hr.j _

theorem errorPrefix_sim (h : SameTok t t') : QSim Eq (errorPrefix t) (errorPrefix t') := by
  unfold errorPrefix
  rw [h.kind]
  exact QSim.ite (fun _ => pushNext_sim h) fun _ => QSim.panic

theorem missingKind_same {s s' : PS} (h : SameP s s') : missingKind s = missingKind s' := by
  unfold missingKind; rw [h.topPrec]

theorem closerPrefix_sim (h : SameTok t t') : QSim Eq (closerPrefix envA t) (closerPrefix envB t') := by
  unfold closerPrefix
  rw [h.kind]
  refine QSim.ite (fun _ => QSim.bind QSim.get fun s s' hs => ?_) fun _ => QSim.panic
  rw [missingKind_same hs]
  exact QSim.bindE (pushTok_sim (h.atStart _)) fun _ => QSim.bind peekP_sim fun _ _ _ => QSim.pure rfl

theorem toplevelCloser_sim (h : SameTok t t') : QSim Eq (toplevelCloser t) (toplevelCloser t') := by
  unfold toplevelCloser
  rw [h.kind]
  exact QSim.ite (fun _ => QSim.bindE (pushTok_sim (h.at _)) fun _ => skipP_sim h) fun _ => QSim.panic

theorem eofPrefix_sim (h : SameTok t t') : QSim Eq (eofPrefix t) (eofPrefix t') := by
  unfold eofPrefix
  refine QSim.bind QSim.get fun s s' hs => ?_
  rw [missingKind_same hs]
  exact pushTok_sim (h.atStart _)

theorem unsupportedPrefix_sim (h : SameTok t t') : QSim Eq (unsupportedPrefix t) (unsupportedPrefix t') :=
  QSim.bindE (pushTok_sim (h.at _)) fun _ => skipP_sim h

theorem commaPrefix_sim (hr : SameRec rec rec') (h : SameTok t t') : QSim Eq (commaPrefix rec t) (commaPrefix rec' t') := by
  unfold commaPrefix
  refine QSim.bind QSim.get fun s s' hs => ?_
  rw [hs.topPrec]
  exact QSim.bindE (pushTok_sim (h.atStart _)) fun _ => hr.j _

theorem unhandledPrefix_sim (hr : SameRec rec rec') (h : SameTok t t') :
    QSim Eq (unhandledPrefix envA rec t) (unhandledPrefix envB rec' t') := by
  unfold unhandledPrefix
  rw [h.kind]
  refine QSim.ite (fun _ => QSim.panic) fun _ => ?_
  refine QSim.bindE (pushTok_sim (h.atStart _)) fun _ => QSim.bind peekP_sim fun _ _ _ => ?_
  refine QSim.bindE infixPrec_sim fun p => QSim.bind QSim.get fun s s' hs => ?_
  rw [hs.topPrec]
  refine QSim.ite (fun _ => QSim.pure rfl) fun _ => QSim.bindE pushContext_sim fun _ => hr.i h

theorem parseUnder_sim {bop : CompoundOp} (h : SameTok t t') :
    QSim SameTree (parseUnder envA bop t) (parseUnder envB bop t') := by
  unfold parseUnder
  refine QSim.bindE (skipP_sim h) fun _ => QSim.bind peekP_sim fun t2 t2' h2 => ?_
  rw [h2.kind]
  refine QSim.ite (fun _ => QSim.bindE (skipP_sim h2) fun _ => QSim.pure ?_) fun _ => QSim.pure h.tree
  exact .node (.cons h.tree (.cons h2.tree .nil))

theorem underPrefix_sim (hr : SameRec rec rec') {bop : CompoundOp} (h : SameTok t t') :
    QSim Eq (underPrefix envA rec bop t) (underPrefix envB rec' bop t') :=
  QSim.bind (parseUnder_sim h) fun _ _ hc => pushClimb_sim hr hc

theorem symbolUnder_sim (hr : SameRec rec rec') {bop pbop : CompoundOp} (h : SameTok t t') (h2 : SameTok t2 t2') :
    QSim Eq (symbolUnder envA rec t bop pbop t2) (symbolUnder envB rec' t' bop pbop t2') :=
  QSim.bind (parseUnder_sim h2) fun _ _ hc => pushClimb_sim hr (.node (.cons h.tree (.cons hc .nil)))

theorem symbolRest_sim (hr : SameRec rec rec') (h : SameTok t t') (h2 : SameTok t2 t2') :
    QSim Eq (symbolRest envA rec t t2) (symbolRest envB rec' t' t2') := by
  unfold symbolRest
  rw [h2.kind]
  generalize t2'.kind = k
  split
  · exact symbolUnder_sim hr h h2
  · exact symbolUnder_sim hr h h2
  · exact symbolUnder_sim hr h h2
  · exact QSim.bindE (skipP_sim h2) fun _ => pushClimb_sim hr (.node (.cons h.tree (.cons h2.tree .nil)))
  · exact pushClimb_sim hr h.tree

theorem symbolPrefix_sim (hr : SameRec rec rec') (h : SameTok t t') :
    QSim Eq (symbolPrefix envA rec t) (symbolPrefix envB rec' t') :=
  QSim.bindE (skipP_sim h) fun _ => QSim.bind peekP_sim fun _ _ h2 => symbolRest_sim hr h h2

theorem slotPrefix_sim (hr : SameRec rec rec') {pol : Pol} {op : CompoundOp} {b : Bool} (h : SameTok t t') :
    QSim Eq (slotPrefix envA rec pol op b t) (slotPrefix envB rec' pol op b t') := by
  unfold slotPrefix
  refine QSim.bindE (skipP_sim h) fun _ => QSim.bind peekWithP_sim fun t2 t2' h2 => ?_
  rw [h2.kind]
  refine QSim.ite (fun _ => QSim.bindE (skipP_sim h2) fun _ => ?_) fun _ => pushClimb_sim hr h.tree
  exact pushClimb_sim hr (.node (.cons h.tree (.cons h2.tree .nil)))

theorem opPrefix_sim (hr : SameRec rec rec') {n : Nat} {op : PrefixOp} (h : SameTok t t') :
    QSim Eq (opPrefix envA rec n op t) (opPrefix envB rec' n op t') :=
  QSim.bindE (pushNext_sim h) fun _ => QSim.bindE pushContext_sim fun _ => QSim.bindE (operand_sim hr) fun _ =>
    reduceClimb_sim hr

theorem groupPrefix_sim (hr : SameRec rec rec') {opener : TK} {op : GroupOp} (h : SameTok t t') :
    QSim Eq (groupPrefix rec opener op t) (groupPrefix rec' opener op t') := by
  unfold groupPrefix
  rw [h.kind]
  cases groupOpenerToCloser opener with
  | none => exact QSim.panic
  | some c =>
    cases groupOpenerToCloser t'.kind with
    | none => exact QSim.panic
    | some c' =>
      exact QSim.bindE pushGroup_sim fun _ => QSim.bindE (pushNext_sim h) fun _ => QSim.bindE pushContext_sim fun _ =>
        hr.j _

theorem semiSemiPrefix_sim (hr : SameRec rec rec') (h : SameTok t t') :
    QSim Eq (semiSemiPrefix rec t) (semiSemiPrefix rec' t') :=
  QSim.bindE (pushTok_sim (h.atStart _)) fun _ => QSim.bindE pushContext_sim fun _ => hr.i h

theorem integral1_sim (hr : SameRec rec rec') {op1 : PrefixBinaryOp} {op2 : PrefixOp} :
    QSim Eq (integral1 envA rec op1 op2) (integral1 envB rec' op1 op2) := by
  unfold integral1
  refine QSim.bind currentToken_sim ?_
  rintro ⟨ts, t⟩ ⟨ts', t'⟩ ⟨hts, h⟩
  simp only at hts h
  simp only
  rw [h.kind]
  refine QSim.ite (fun _ => ?_) fun _ => ?_
  · exact QSim.bindE (pushTrivia_sim hts) fun _ => QSim.bindE (hr.p h) fun _ => reduceClimb_sim hr
  · exact QSim.bindE (triviaReset_sim hts) fun _ => reduceClimb_sim hr

theorem integralPrefix_sim (hr : SameRec rec rec') {op1 : PrefixBinaryOp} {op2 : PrefixOp} (h : SameTok t t') :
    QSim Eq (integralPrefix envA rec op1 op2 t) (integralPrefix envB rec' op1 op2 t') := by
  unfold integralPrefix
  refine QSim.bindE (pushNext_sim h) fun _ => QSim.bindE pushContext_sim fun _ => QSim.bind eatTrivia_sim fun t2 t2' h2 => ?_
  rw [h2.kind]
  refine QSim.ite (fun _ => ?_) fun _ => ?_
  · exact QSim.bindE (pushTok_sim (h2.atStart _)) fun _ => integral1_sim hr
  · exact QSim.bindE (hr.p h2) fun _ => integral1_sim hr

theorem lessLessPrefix_sim (hr : SameRec rec rec') (h : SameTok t t') :
    QSim Eq (lessLessPrefix envA rec t) (lessLessPrefix envB rec' t') :=
  QSim.bindE (pushNext_sim h) fun _ => QSim.bindE pushContext_sim fun _ => QSim.bind eatTriviaFile_sim fun _ _ h2 =>
    QSim.bindE (pushNext_sim h2) fun _ => reduceClimb_sim hr

theorem parsePrefix_sim (hr : SameRec rec rec') (h : SameTok t t') :
    QSim Eq (parsePrefix envA rec t) (parsePrefix envB rec' t') := by
  unfold parsePrefix
  rw [h.kind]
  cases t'.kind.prefixParselet with
  | leaf => exact leafPrefix_sim hr h
  | error => exact errorPrefix_sim h
  | closer => exact closerPrefix_sim h
  | eof => exact eofPrefix_sim h
  | unsupported => exact unsupportedPrefix_sim h
  | comma => exact commaPrefix_sim hr h
  | unhandled => exact unhandledPrefix_sim hr h
  | symbol => exact symbolPrefix_sim hr h
  | underDot => exact leafPrefix_sim hr h
  | hash => exact slotPrefix_sim hr h
  | hashHash => exact slotPrefix_sim hr h
  | percent => exact slotPrefix_sim hr h
  | semiSemi => exact semiSemiPrefix_sim hr h
  | lessLess => exact lessLessPrefix_sim hr h
  | op p op => exact opPrefix_sim hr h
  | group opener op => exact groupPrefix_sim hr h
  | under bop _ => exact underPrefix_sim hr h
  | integral op1 op2 => exact integralPrefix_sim hr h

/-! ### Infix parselets -/

theorem binaryInfix_sim (hr : SameRec rec rec') {op : BinaryOp} (h : SameTok t t') :
    QSim Eq (binaryInfix envA rec op t) (binaryInfix envB rec' op t') :=
  QSim.bindE (pushNext_sim h) fun _ => QSim.bindE (operand_sim hr) fun _ => reduceClimb_sim hr

theorem loopInfix_sim (hr : SameRec rec rec') {j : Job} (h : SameTok t t') :
    QSim Eq (loopInfix envA rec j t) (loopInfix envB rec' j t') :=
  QSim.bindE (pushNext_sim h) fun _ => QSim.bindE (operand_sim hr) fun _ => hr.j _

theorem postfixInfix_sim (hr : SameRec rec rec') {op : PostfixOp} (h : SameTok t t') :
    QSim Eq (postfixInfix rec op t) (postfixInfix rec' op t') :=
  QSim.bindE (pushNext_sim h) fun _ => reduceClimb_sim hr

theorem callInfix_sim (hr : SameRec rec rec') {opener : TK} {op : GroupOp} (h : SameTok t t') :
    QSim Eq (callInfix rec opener op t) (callInfix rec' opener op t') :=
  QSim.bindE setPrecedence_sim fun _ => QSim.bindE (groupPrefix_sim hr h) fun _ => QSim.bindE reduceCall_sim fun _ => hr.j _

theorem tildeRest_sim (hr : SameRec rec rec') : QSim Eq (tildeRest envA rec) (tildeRest envB rec') := by
  unfold tildeRest
  refine QSim.bind currentToken_sim ?_
  rintro ⟨ts, t⟩ ⟨ts', t'⟩ ⟨hts, h⟩
  simp only at hts h
  simp only
  rw [h.kind]
  refine QSim.ite (fun _ => ?_) fun _ => ?_
  · exact QSim.bindE (commitNext_sim hts h) fun _ => QSim.bindE (operand_sim hr) fun _ => reduceClimb_sim hr
  · exact QSim.bindE (triviaReset_sim hts) fun _ => reduceClimb_sim hr

theorem tildeInfix_sim (hr : SameRec rec rec') (h : SameTok t t') :
    QSim Eq (tildeInfix envA rec t) (tildeInfix envB rec' t') :=
  QSim.bindE (pushNext_sim h) fun _ => QSim.bindE (operand_sim hr) fun _ => tildeRest_sim hr

theorem colonRest_sim (hr : SameRec rec rec') {l : ColonLHS} (h : SameTok t t') :
    QSim Eq (colonRest rec l t) (colonRest rec' l t') := by
  cases l <;> exact QSim.bindE setPrecedence_sim fun _ => QSim.bindE (hr.p h) fun _ => reduceClimb_sim hr

theorem colonInfix_sim (hr : SameRec rec rec') (h : SameTok t t') :
    QSim Eq (colonInfix envA rec t) (colonInfix envB rec' t') :=
  QSim.bindE checkColonLhs_sim fun _ => QSim.bindE (pushNext_sim h) fun _ => QSim.bind eatTrivia_sim fun _ _ h2 =>
    colonRest_sim hr h2

theorem equalRest_sim (hr : SameRec rec rec') {k k' : NodeKind} :
    QSim Eq (equalRest envA rec k k') (equalRest envB rec' k k') := by
  unfold equalRest
  refine QSim.bind eatTrivia_sim fun t t' h => ?_
  rw [h.kind]
  refine QSim.ite (fun _ => ?_) fun _ => ?_
  · exact QSim.bindE (pushNext_sim h) fun _ => reduceClimb_sim hr
  · exact QSim.bindE (hr.p h) fun _ => reduceClimb_sim hr

theorem equalInfix_sim (hr : SameRec rec rec') (h : SameTok t t') :
    QSim Eq (equalInfix envA rec t) (equalInfix envB rec' t') :=
  QSim.bindE (pushNext_sim h) fun _ => equalRest_sim hr

theorem slashColonRest_sim (hr : SameRec rec rec') : QSim Eq (slashColonRest envA rec) (slashColonRest envB rec') := by
  unfold slashColonRest
  refine QSim.bind currentToken_sim ?_
  rintro ⟨ts, t⟩ ⟨ts', t'⟩ ⟨hts, h⟩
  simp only at hts h
  simp only
  rw [h.kind]
  refine QSim.ite (fun _ => ?_) fun _ => QSim.ite (fun _ => ?_) fun _ => ?_
  · exact QSim.bindE setPrecedence_sim fun _ => QSim.bindE (commitNext_sim hts h) fun _ => equalRest_sim hr
  · exact QSim.bindE setPrecedence_sim fun _ => QSim.bindE (commitNext_sim hts h) fun _ =>
      QSim.bindE (operand_sim hr) fun _ => reduceClimb_sim hr
  · exact QSim.bindE (triviaReset_sim hts) fun _ => reduceClimb_sim hr

theorem slashColonInfix_sim (hr : SameRec rec rec') (h : SameTok t t') :
    QSim Eq (slashColonInfix envA rec t) (slashColonInfix envB rec' t') :=
  QSim.bindE (pushNext_sim h) fun _ => QSim.bindE (operand_sim hr) fun _ => slashColonRest_sim hr

theorem commaOperand_sim (hr : SameRec rec rec') : QSim Eq (commaOperand envA rec) (commaOperand envB rec') := by
  unfold commaOperand
  refine QSim.bind eatTrivia_sim fun t t' h => ?_
  rw [h.kind]
  exact QSim.ite (fun _ => pushTok_sim (h.atStart _)) fun _ => hr.p h

theorem commaInfix_sim (hr : SameRec rec rec') (h : SameTok t t') :
    QSim Eq (commaInfix envA rec t) (commaInfix envB rec' t') :=
  QSim.bindE (pushNext_sim h) fun _ => QSim.bindE (commaOperand_sim hr) fun _ => hr.j _

theorem semiOperand_sim (hr : SameRec rec rec') : QSim Eq (semiOperand envA rec) (semiOperand envB rec') := by
  unfold semiOperand
  refine QSim.bind eatTriviaNTN_sim fun t t' h => ?_
  rw [h.kind]
  refine QSim.ite (fun _ => ?_) fun _ => QSim.ite (fun _ => ?_) fun _ => ?_
  · exact QSim.bindE (pushTok_sim (h.atStart _)) fun _ => hr.j _
  · exact QSim.bindE (hr.p h) fun _ => hr.j _
  · exact QSim.bindE (pushTok_sim (h.atStart _)) fun _ => reduceClimb_sim hr

theorem semiInfix_sim (hr : SameRec rec rec') (h : SameTok t t') :
    QSim Eq (semiInfix envA rec t) (semiInfix envB rec' t') :=
  QSim.bindE (pushNext_sim h) fun _ => semiOperand_sim hr

theorem colonColonTag_sim (hr : SameRec rec rec') : QSim Eq (colonColonTag envA rec) (colonColonTag envB rec') :=
  QSim.bind (QSim.lift peekTokenTag_sim) fun _ _ h => QSim.bindE (pushNext_sim h) fun _ => hr.j _

theorem colonColonInfix_sim (hr : SameRec rec rec') (h : SameTok t t') :
    QSim Eq (colonColonInfix envA rec t) (colonColonInfix envB rec' t') :=
  QSim.bindE (pushNext_sim h) fun _ => colonColonTag_sim hr

theorem putInfix_sim (hr : SameRec rec rec') {op : BinaryOp} (h : SameTok t t') :
    QSim Eq (putInfix envA rec op t) (putInfix envB rec' op t') :=
  QSim.bindE (pushNext_sim h) fun _ => QSim.bind eatTriviaFile_sim fun _ _ h2 => QSim.bindE (pushNext_sim h2) fun _ =>
    reduceClimb_sim hr

theorem span3_sim (hr : SameRec rec rec') (hts : List.Forall₂ SameTok ts ts') (h : SameTok t t') :
    QSim Eq (span3 envA rec ts t) (span3 envB rec' ts' t') := by
  unfold span3
  refine QSim.bindE (skipP_sim h) fun _ => QSim.bind currentTokenNTN_sim ?_
  rintro ⟨ts4, t4⟩ ⟨ts4', t4'⟩ ⟨hts4, h4⟩
  simp only at hts4 h4
  simp only
  rw [h4.kind]
  refine QSim.ite (fun _ => ?_) fun _ => ?_
  · exact QSim.bindE (triviaReset_sim hts4) fun _ => QSim.bindE (resetP_sim h) fun _ =>
      QSim.bindE (triviaReset_sim hts) fun _ => reduceClimb_sim hr
  · exact QSim.bindE (pushTrivia_sim hts) fun _ => QSim.bindE (pushTok_sim h) fun _ =>
      QSim.bindE (pushTrivia_sim hts4) fun _ => QSim.bindE (hr.p h4) fun _ => reduceClimb_sim hr

theorem span2_sim (hr : SameRec rec rec') : QSim Eq (span2 envA rec) (span2 envB rec') := by
  unfold span2
  refine QSim.bind currentTokenNTN_sim ?_
  rintro ⟨ts, t⟩ ⟨ts', t'⟩ ⟨hts, h⟩
  simp only at hts h
  simp only
  rw [h.kind]
  refine QSim.ite (fun _ => ?_) fun _ => span3_sim hr hts h
  exact QSim.bindE (triviaReset_sim hts) fun _ => reduceClimb_sim hr

theorem spanImplicit_sim (hr : SameRec rec rec') (h : SameTok t t') :
    QSim Eq (spanImplicit envA rec t) (spanImplicit envB rec' t') := by
  unfold spanImplicit
  refine QSim.bindE (skipP_sim h) fun _ => QSim.bind currentTokenNTN_sim ?_
  rintro ⟨ts4, t4⟩ ⟨ts4', t4'⟩ ⟨hts4, h4⟩
  simp only at hts4 h4
  simp only
  rw [h4.kind]
  refine QSim.ite (fun _ => ?_) fun _ => ?_
  · exact QSim.bindE (triviaReset_sim hts4) fun _ => QSim.bindE (resetP_sim h) fun _ => reduceClimb_sim hr
  · exact QSim.bindE (pushTok_sim h) fun _ => QSim.bindE (pushTrivia_sim hts4) fun _ =>
      QSim.bindE (hr.p h4) fun _ => reduceClimb_sim hr

theorem semiSemiInfix_sim (hr : SameRec rec rec') (h : SameTok t t') :
    QSim Eq (semiSemiInfix envA rec t) (semiSemiInfix envB rec' t') := by
  unfold semiSemiInfix
  refine QSim.bindE (pushNext_sim h) fun _ => QSim.bind eatTriviaNTN_sim fun t2 t2' h2 => ?_
  rw [h2.kind]
  refine QSim.ite (fun _ => ?_) fun _ => QSim.ite (fun _ => ?_) fun _ => ?_
  · exact QSim.bindE (pushTok_sim (h2.atStart _)) fun _ => reduceClimb_sim hr
  · exact QSim.bindE (hr.p h2) fun _ => span2_sim hr
  · exact QSim.bindE (pushTok_sim (h2.atStart _)) fun _ => spanImplicit_sim hr h2

theorem parseInfix_sim (hr : SameRec rec rec') (h : SameTok t t') :
    QSim Eq (parseInfix envA rec t) (parseInfix envB rec' t') := by
  unfold parseInfix
  rw [h.kind]
  cases t'.kind.infixParselet with
  | assertFalse => exact QSim.panic
  | toplevelNewline => exact QSim.panic
  | implicitTimes => exact QSim.panic
  | differentialD => exact QSim.panic
  | times => exact loopInfix_sim hr h
  | semi => exact semiInfix_sim hr h
  | comma => exact commaInfix_sim hr h
  | semiSemi => exact semiSemiInfix_sim hr h
  | tilde => exact tildeInfix_sim hr h
  | colon => exact colonInfix_sim hr h
  | slashColon => exact slashColonInfix_sim hr h
  | equal => exact equalInfix_sim hr h
  | colonEqual => exact binaryInfix_sim hr h
  | colonColon => exact colonColonInfix_sim hr h
  | greaterGreater => exact putInfix_sim hr h
  | greaterGreaterGreater => exact putInfix_sim hr h
  | binary _ op => exact binaryInfix_sim hr h
  | «infix» _ op => exact loopInfix_sim hr h
  | «postfix» _ op => exact postfixInfix_sim hr h
  | call opener op => exact callInfix_sim hr h

/-! ### Loops -/

theorem infixLoop_sim (hr : SameRec rec rec') {op : InfixOp} : QSim Eq (infixLoop envA rec op) (infixLoop envB rec' op) := by
  unfold infixLoop
  refine QSim.bind currentToken_sim ?_
  rintro ⟨ts, t⟩ ⟨ts', t'⟩ ⟨hts, h⟩
  simp only at hts h
  simp only
  rw [h.kind]
  refine QSim.ite (fun _ => ?_) fun _ => ?_
  · exact QSim.bindE (triviaReset_sim hts) fun _ => reduceClimb_sim hr
  · exact QSim.bindE (commitNext_sim hts h) fun _ => QSim.bindE (operand_sim hr) fun _ => hr.j _

theorem timesToken_sim : QSim SameRead (timesToken envA) (timesToken envB) := by
  unfold timesToken
  refine QSim.bind currentToken_sim ?_
  rintro ⟨ts, t⟩ ⟨ts', t'⟩ ⟨hts, h⟩
  simp only at hts h
  simp only
  refine QSim.bind (processImplicitTimes_sim h) fun u u' hu => ?_
  rw [hu.kind]
  refine QSim.ite (fun _ => ?_) fun _ => QSim.pure ⟨hts, hu⟩
  refine QSim.bindE (triviaReset_sim hts) fun _ => QSim.bind currentTokenNTN_sim fun p p' hp => ?_
  exact QSim.bind (processImplicitTimes_sim hp.2) fun v v' hv => QSim.pure ⟨hp.1, hv⟩

theorem timesLoop_sim (hr : SameRec rec rec') : QSim Eq (timesLoop envA rec) (timesLoop envB rec') := by
  unfold timesLoop
  refine QSim.bind timesToken_sim ?_
  rintro ⟨ts, t⟩ ⟨ts', t'⟩ ⟨hts, h⟩
  simp only at hts h
  simp only
  rw [h.kind]
  refine QSim.ite (fun _ => ?_) fun _ => ?_
  · exact QSim.bindE (triviaReset_sim hts) fun _ => reduceClimb_sim hr
  · exact QSim.bindE (commitNext_sim hts h) fun _ => QSim.bindE (operand_sim hr) fun _ => hr.j _

theorem commaLoop_sim (hr : SameRec rec rec') : QSim Eq (commaLoop envA rec) (commaLoop envB rec') := by
  unfold commaLoop
  refine QSim.bind currentToken_sim ?_
  rintro ⟨ts, t⟩ ⟨ts', t'⟩ ⟨hts, h⟩
  simp only at hts h
  simp only
  rw [h.kind]
  refine QSim.ite (fun _ => ?_) fun _ => ?_
  · exact QSim.bindE (commitNext_sim hts h) fun _ => QSim.bindE (commaOperand_sim hr) fun _ => hr.j _
  · exact QSim.bindE (triviaReset_sim hts) fun _ => reduceNode_sim

theorem semiLoop_sim (hr : SameRec rec rec') : QSim Eq (semiLoop envA rec) (semiLoop envB rec') := by
  unfold semiLoop
  refine QSim.bind currentToken_sim ?_
  rintro ⟨ts, t⟩ ⟨ts', t'⟩ ⟨hts, h⟩
  simp only at hts h
  simp only
  rw [h.kind]
  refine QSim.ite (fun _ => ?_) fun _ => ?_
  · exact QSim.bindE (commitNext_sim hts h) fun _ => semiOperand_sim hr
  · exact QSim.bindE (triviaReset_sim hts) fun _ => reduceClimb_sim hr

theorem colonColonLoop_sim (hr : SameRec rec rec') : QSim Eq (colonColonLoop envA rec) (colonColonLoop envB rec') := by
  unfold colonColonLoop
  refine QSim.bind currentToken_sim ?_
  rintro ⟨ts, t⟩ ⟨ts', t'⟩ ⟨hts, h⟩
  simp only at hts h
  simp only
  rw [h.kind]
  refine QSim.ite (fun _ => ?_) fun _ => ?_
  · exact QSim.bindE (commitNext_sim hts h) fun _ => colonColonTag_sim hr
  · exact QSim.bindE (triviaReset_sim hts) fun _ => reduceClimb_sim hr

theorem groupLoop_sim (hr : SameRec rec rec') {c : Closer} {op : GroupOp} :
    QSim Eq (groupLoop envA rec c op) (groupLoop envB rec' c op) := by
  unfold groupLoop
  refine QSim.bind currentToken_sim ?_
  rintro ⟨ts, t⟩ ⟨ts', t'⟩ ⟨hts, h⟩
  simp only at hts h
  simp only
  rw [h.kind]
  refine QSim.ite (fun _ => ?_) fun _ => QSim.ite (fun _ => ?_) fun _ => ?_
  · exact QSim.bindE (commitNext_sim hts h) fun _ => QSim.bindE reduceGroup_sim fun _ => hr.j _
  · refine QSim.bind QSim.get fun s s' hs => ?_
    have : checkGroup s (tokenToCloser t'.kind) = checkGroup s' (tokenToCloser t'.kind) := by
      unfold checkGroup; rw [hs.groups]
    rw [this]
    refine QSim.ite (fun _ => ?_) fun _ => ?_
    · exact QSim.bindE (triviaReset_sim hts) fun _ => reduceGroup_sim
    · exact QSim.bindE (pushTrivia_sim hts) fun _ => QSim.bindE (toplevelCloser_sim h) fun _ => hr.j _
  · refine QSim.bindE (pushTrivia_sim hts) fun _ => QSim.ite (fun _ => reduceUnterminated_sim) fun _ => ?_
    exact QSim.bindE (hr.p h) fun _ => hr.j _

theorem step_sim (hr : SameRec rec rec') : SameRec (step envA rec) (step envB rec') := by
  intro j j' hj
  have same : ∀ t, SameTok t t := fun t => ⟨rfl, rfl, rfl⟩
  cases hj with
  | «prefix» h => exact parsePrefix_sim hr h
  | «infix» h => exact parseInfix_sim hr h
  | same j =>
    cases j with
    | «prefix» t => exact parsePrefix_sim hr (same t)
    | «infix» t => exact parseInfix_sim hr (same t)
    | climb => exact climb_sim hr
    | groupLoop c op => exact groupLoop_sim hr
    | infixLoop op => exact infixLoop_sim hr
    | timesLoop => exact timesLoop_sim hr
    | commaLoop => exact commaLoop_sim hr
    | semiLoop => exact semiLoop_sim hr
    | colonColonLoop => exact colonColonLoop_sim hr

theorem run_sim (n : Nat) : SameRec (run envA n) (run envB n) := by
  induction n with
  | zero => intro j j' _ s s' _ a t a' t' h; cases h
  | succ n ih => exact step_sim ih

theorem assertQuiescent_sim : QSim Eq assertQuiescent assertQuiescent := by
  intro s s' hs b t b' t' h1 h2
  unfold assertQuiescent at h1 h2
  rw [hs.groups, hs.ctxs] at h1
  by_cases h : (s'.ctxs.isEmpty && s'.groups.isEmpty) = true
  · rw [if_pos h] at h1 h2; cases h1; cases h2; exact ⟨rfl, hs⟩
  · rw [if_neg h] at h1; cases h1

theorem parseItem_sim (h : SameTok t t') : QSim SameTree (parseItem envA t) (parseItem envB t') := by
  unfold parseItem
  rw [h.kind]
  refine QSim.ite (fun _ => QSim.bindE (skipP_sim h) fun _ => QSim.pure h.tree) fun _ => QSim.ite (fun _ => ?_) fun _ => ?_
  · exact QSim.bindE (toplevelCloser_sim h) fun _ => QSim.bind popNode_sim fun c c' hc =>
      QSim.bindE assertQuiescent_sim fun _ => QSim.pure hc
  · refine QSim.bind QSim.get fun s s' hs => ?_
    rw [hs.st.rest]
    exact QSim.bindE ((run_sim _).p h) fun _ => QSim.bind popNode_sim fun c c' hc =>
      QSim.bindE assertQuiescent_sim fun _ => QSim.pure hc

theorem parseLoopN_sim (n : Nat) : ∀ {cs cs' : List Cst}, List.Forall₂ SameTree cs cs' →
    QSim (List.Forall₂ SameTree) (parseLoopN envA n cs) (parseLoopN envB n cs') := by
  induction n with
  | zero => intro _ _ _ s s' _ a t a' t' h; cases h
  | succ n ih =>
    intro cs cs' hcs
    unfold parseLoopN
    refine QSim.bind peekP_sim fun t t' h => ?_
    rw [h.kind]
    refine QSim.ite (fun _ => QSim.pure hcs) fun _ => QSim.bind (parseItem_sim h) fun c c' hc => ih (forall₂_snoc hcs hc)

theorem doParse_same {conv conv' : Conv} {f : FirstLine} {bs : List UInt8} {cs cs' : List Cst} {s s' : PS}
    (h : doParse envA conv f bs = .ok (cs, s)) (h' : doParse envB conv' f bs = .ok (cs', s')) :
    List.Forall₂ SameTree cs cs' ∧ s.st.flag = s'.st.flag := by
  unfold doParse at h h'
  have : QSim (List.Forall₂ SameTree) (do P.lift (handleFirstLine cfg f); parseLoop envA : P (List Cst))
      (do P.lift (handleFirstLine (wide cfg w hw) f); parseLoop envB : P (List Cst)) := by
    refine QSim.bindE (QSim.lift handleFirstLine_sim) fun _ => ?_
    refine QSim.fn (f := fun s => parseLoopN envA (s.st.rest.length + 1) []) (f' := fun s => parseLoopN envB (s.st.rest.length + 1) [])
      fun s s' hs => ?_
    rw [hs.st.rest]
    exact parseLoopN_sim _ .nil
  have := this ⟨St.init conv bs, [], [], []⟩ ⟨St.init conv' bs, [], [], []⟩ ⟨⟨rfl, rfl, rfl⟩, rfl, rfl, .nil⟩ _ _ _ _ h h'
  exact ⟨this.1, this.2.st.flag⟩

end
end CodeParser.Place
