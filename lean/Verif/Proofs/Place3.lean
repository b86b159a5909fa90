import Verif.Model.Parser
import Verif.Spec.Places
import Verif.Proofs.Place2
/-!
Positions do not influence parsing (helper lemmas).
-/
namespace CodeParser.Place
open Spec

theorem SameTok.weak {t t' : Tok} (h : SameTok t t') : SameToken t t' := ⟨h.kind, fun _ => h.text⟩
theorem SameTok.tree {t t' : Tok} (h : SameTok t t') : SameTree (.tok t) (.tok t') := .tok h.weak
theorem SameTok.atStart {t t' : Tok} (h : SameTok t t') (k : TK) : SameTok (t.atStart k) (t'.atStart k) :=
  ⟨rfl, rfl, by show t.text ++ t.after = t'.text ++ t'.after; rw [h.text, h.after]⟩
theorem SameTok.at {t t' : Tok} (h : SameTok t t') (k : TK) : SameTok (t.at k) (t'.at k) :=
  ⟨rfl, h.text, h.after⟩

/-- Two parser states that differ in positions only. -/
structure SameP (s s' : PS) : Prop where
  st : Alike s.st s'.st
  groups : s.groups = s'.groups
  ctxs : s.ctxs = s'.ctxs
  stack : List.Forall₂ SameTree s.stack s'.stack

/-- If both computations succeed, they give related results. -/
def QSim {α} (ra : α → α → Prop) (m m' : P α) : Prop :=
  ∀ s s', SameP s s' → ∀ a t a' t', m s = .ok (a, t) → m' s' = .ok (a', t') → ra a a' ∧ SameP t t'

section
variable {α β : Type} {ra : α → α → Prop} {rb : β → β → Prop}

theorem QSim.pure {a a' : α} (h : ra a a') : QSim ra (Pure.pure a) (Pure.pure a') := by
  intro s s' hs b t b' t' h1 h2
  have e1 : (Except.ok (a, s) : Except Err (α × PS)) = .ok (b, t) := h1
  have e2 : (Except.ok (a', s') : Except Err (α × PS)) = .ok (b', t') := h2
  cases e1; cases e2
  exact ⟨h, hs⟩

theorem QSim.bind {m m' : P α} {f f' : α → P β} (h : QSim ra m m') (hf : ∀ a a', ra a a' → QSim rb (f a) (f' a')) :
    QSim rb (m >>= f) (m' >>= f') := by
  intro s s' hs b t b' t' h1 h2
  have e1 : P.bind m f s = .ok (b, t) := h1
  have e2 : P.bind m' f' s' = .ok (b', t') := h2
  unfold P.bind at e1 e2
  rcases hm : m s with e | ⟨a, u⟩ <;> rw [hm] at e1
  · cases e1
  rcases hm' : m' s' with e | ⟨a', u'⟩ <;> rw [hm'] at e2
  · cases e2
  obtain ⟨h3, h4⟩ := h s s' hs a u a' u' hm hm'
  exact hf a a' h3 u u' h4 b t b' t' e1 e2

theorem QSim.bindE {m m' : P α} {f f' : α → P β} (h : QSim Eq m m') (hf : ∀ a, QSim rb (f a) (f' a)) :
    QSim rb (m >>= f) (m' >>= f') := h.bind fun a a' e => by subst e; exact hf a

theorem QSim.ite {c : Prop} [Decidable c] {x y x' y' : P α}
    (h1 : c → QSim ra x x') (h2 : ¬ c → QSim ra y y') :
    QSim ra (if c then x else y) (if c then x' else y') := by
  by_cases h : c
  · rw [if_pos h, if_pos h]; exact h1 h
  · rw [if_neg h, if_neg h]; exact h2 h

theorem QSim.panic {p : Site} {m' : P α} : QSim ra (P.panic p) m' := by
  intro s s' hs b t b' t' h1 h2
  cases h1

theorem QSim.lift {m m' : M α} (h : PSim ra m m') : QSim ra (P.lift m) (P.lift m') := by
  intro s s' hs b t b' t' h1 h2
  unfold P.lift at h1 h2
  have h3 := h s.st s'.st hs.st
  rcases hm : m s.st with e | ⟨a, u⟩ <;> rw [hm] at h1 h3
  · cases h1
  rcases hm' : m' s'.st with e | ⟨a', u'⟩ <;> rw [hm'] at h2 h3
  · cases h2
  cases h1; cases h2
  exact ⟨h3.1, h3.2, hs.groups, hs.ctxs, hs.stack⟩

theorem QSim.get : QSim SameP P.get P.get := by
  intro s s' hs b t b' t' h1 h2
  cases h1; cases h2
  exact ⟨hs, hs⟩

/-- A computation given by a function of the state. -/
theorem QSim.fn {f f' : PS → P α} (h : ∀ s s', SameP s s' → QSim ra (f s) (f' s')) :
    QSim ra (fun s => f s s) (fun s => f' s s) :=
  fun s s' hs => h s s' hs s s' hs
end

theorem SameP.topPrec {s s' : PS} (h : SameP s s') : s.topPrec = s'.topPrec := by
  unfold PS.topPrec; rw [h.ctxs]

/-! ### Tokens and builder -/

/-- Trivia and a token. -/
def SameRead (p p' : List Tok × Tok) : Prop := List.Forall₂ SameTok p.1 p'.1 ∧ SameTok p.2 p'.2

section
variable {cfg : Cfg} {w : Nat} {hw : 0 < w} {rcv rcv' : GroupOp → List Cst → Except Err (List Cst)}

/-- The two environments. -/
local notation "envA" => PEnv.mk cfg rcv
local notation "envB" => PEnv.mk (wide cfg w hw) rcv'

theorem peekP_sim : QSim SameTok (peekP envA) (peekP envB) := by
  refine QSim.fn (f := fun s => P.lift (peekToken cfg (!s.groups.isEmpty))) (f' := fun s => P.lift (peekToken (wide cfg w hw) (!s.groups.isEmpty))) fun s s' h => ?_
  rw [h.groups]; exact QSim.lift peekToken_sim

theorem peekWithP_sim {pol : Pol} : QSim SameTok (peekWithP envA pol) (peekWithP envB pol) := by
  refine QSim.fn (f := fun s => P.lift (peekTokenWith cfg pol (!s.groups.isEmpty))) (f' := fun s => P.lift (peekTokenWith (wide cfg w hw) pol (!s.groups.isEmpty))) fun s s' h => ?_
  rw [h.groups]; exact QSim.lift peekTokenWith_sim

theorem skipP_sim {t t' : Tok} (h : SameTok t t') : QSim Eq (skipP t) (skipP t') := QSim.lift (skip_sim h)
theorem resetP_sim {t t' : Tok} (h : SameTok t t') : QSim Eq (P.lift t.reset) (P.lift t'.reset) := QSim.lift (reset_sim h)

theorem forall₂_snoc {α} {R : α → α → Prop} {l l' : List α} {a a' : α} (h : List.Forall₂ R l l') (ha : R a a') :
    List.Forall₂ R (l ++ [a]) (l' ++ [a']) := List.rel_append h (.cons ha .nil)

theorem eatM_sim {g : Bool} {p : TK → Bool} : PSim SameRead (eatM cfg g p) (eatM (wide cfg w hw) g p) := by
  unfold eatM
  refine PSim.loop (List.Forall₂ SameTok) (fun ts ts' hts => ?_) .nil
  refine PSim.bind peekToken_sim fun t t' h => ?_
  rw [h.kind]
  refine PSim.ite (fun _ => PSim.bindE (skip_sim h) fun _ => PSim.pure (.inl (forall₂_snoc hts h))) fun _ => ?_
  exact PSim.pure (.inr ⟨hts, h⟩)

theorem eatFileM_sim : PSim SameRead (eatFileM cfg) (eatFileM (wide cfg w hw)) := by
  unfold eatFileM
  refine PSim.loop (List.Forall₂ SameTok) (fun ts ts' hts => ?_) .nil
  refine PSim.bind peekTokenFile_sim fun t t' h => ?_
  rw [h.kind]
  refine PSim.ite (fun _ => PSim.bindE (skip_sim h) fun _ => PSim.pure (.inl (forall₂_snoc hts h))) fun _ => ?_
  exact PSim.pure (.inr ⟨hts, h⟩)

theorem currentToken_sim : QSim SameRead (currentToken envA) (currentToken envB) := by
  refine QSim.fn (f := fun s => P.lift (eatM cfg (!s.groups.isEmpty) TK.isTrivia)) (f' := fun s => P.lift (eatM (wide cfg w hw) (!s.groups.isEmpty) TK.isTrivia)) fun s s' h => ?_
  rw [h.groups]; exact QSim.lift eatM_sim

theorem currentTokenNTN_sim : QSim SameRead (currentTokenNTN envA) (currentTokenNTN envB) := by
  refine QSim.fn (f := fun s => P.lift (eatM cfg (!s.groups.isEmpty) TK.isTriviaButNotToplevelNewline)) (f' := fun s => P.lift (eatM (wide cfg w hw) (!s.groups.isEmpty) TK.isTriviaButNotToplevelNewline)) fun s s' h => ?_
  rw [h.groups]; exact QSim.lift eatM_sim

theorem pushNode_sim {c c' : Cst} (h : SameTree c c') : QSim Eq (pushNode c) (pushNode c') := by
  intro s s' hs b t b' t' h1 h2
  cases h1; cases h2
  exact ⟨rfl, hs.st, hs.groups, hs.ctxs, .cons h hs.stack⟩

theorem pushTok_sim {t t' : Tok} (h : SameTok t t') : QSim Eq (pushTok t) (pushTok t') := pushNode_sim h.tree

theorem pushNext_sim {t t' : Tok} (h : SameTok t t') : QSim Eq (pushNext t) (pushNext t') :=
  QSim.bindE (pushTok_sim h) fun _ => skipP_sim h

theorem pushTrivia_sim {ts ts' : List Tok} (h : List.Forall₂ SameTok ts ts') : QSim Eq (pushTrivia ts) (pushTrivia ts') := by
  intro s s' hs b t b' t' h1 h2
  cases h1; cases h2
  refine ⟨rfl, hs.st, hs.groups, hs.ctxs, List.rel_append (List.rel_reverse ?_) hs.stack⟩
  exact List.rel_map (fun _ _ h => h.tree) h

theorem triviaReset_sim {ts ts' : List Tok} (h : List.Forall₂ SameTok ts ts') : QSim Eq (triviaReset ts) (triviaReset ts') := by
  cases h with
  | nil => exact QSim.pure rfl
  | cons h _ => exact resetP_sim h

theorem eatTrivia_sim : QSim SameTok (eatTrivia envA) (eatTrivia envB) :=
  QSim.bind currentToken_sim fun _ _ h => QSim.bindE (pushTrivia_sim h.1) fun _ => QSim.pure h.2

theorem eatTriviaNTN_sim : QSim SameTok (eatTriviaNTN envA) (eatTriviaNTN envB) :=
  QSim.bind currentTokenNTN_sim fun _ _ h => QSim.bindE (pushTrivia_sim h.1) fun _ => QSim.pure h.2

theorem eatTriviaFile_sim : QSim SameTok (eatTriviaFile envA) (eatTriviaFile envB) :=
  QSim.bind (QSim.lift eatFileM_sim) fun _ _ h => QSim.bindE (pushTrivia_sim h.1) fun _ => QSim.pure h.2

theorem commitNext_sim {ts ts' : List Tok} {t t' : Tok} (h : List.Forall₂ SameTok ts ts') (ht : SameTok t t') :
    QSim Eq (commitNext ts t) (commitNext ts' t') :=
  QSim.bindE (pushTrivia_sim h) fun _ => pushNext_sim ht

theorem pushContext_sim {n : Nat} : QSim Eq (pushContext n) (pushContext n) := by
  intro s s' hs b t b' t' h1 h2
  unfold pushContext at h1 h2
  have hst := hs.stack
  rcases hs1 : s.stack with _ | ⟨c, l⟩ <;> rw [hs1] at h1 hst
  · cases h1
  rcases hs2 : s'.stack with _ | ⟨c', l'⟩ <;> rw [hs2] at h2 hst
  · cases h2
  have : l.length = l'.length := by cases hst with | cons _ h => exact h.length_eq
  cases h1; cases h2
  exact ⟨rfl, hs.st, hs.groups, by show _ :: _ = _ :: _; rw [this, hs.ctxs], hst⟩

theorem setPrecedence_sim {n : Nat} : QSim Eq (setPrecedence n) (setPrecedence n) := by
  intro s s' hs b t b' t' h1 h2
  unfold setPrecedence at h1 h2
  rw [hs.ctxs] at h1
  rcases hc : s'.ctxs with _ | ⟨c, l⟩ <;> rw [hc] at h1 h2
  · cases h1
  cases h1; cases h2
  exact ⟨rfl, hs.st, hs.groups, rfl, hs.stack⟩

theorem popContext_sim : QSim Eq popContext popContext := by
  intro s s' hs b t b' t' h1 h2
  unfold popContext at h1 h2
  rw [hs.ctxs] at h1
  rcases hc : s'.ctxs with _ | ⟨c, l⟩ <;> rw [hc] at h1 h2
  · cases h1
  cases h1; cases h2
  exact ⟨rfl, hs.st, hs.groups, rfl, hs.stack⟩

theorem pushGroup_sim {c : Closer} : QSim Eq (pushGroup c) (pushGroup c) := by
  intro s s' hs b t b' t' h1 h2
  cases h1; cases h2
  exact ⟨rfl, hs.st, by show _ :: _ = _ :: _; rw [hs.groups], hs.ctxs, hs.stack⟩

theorem popGroup_sim : QSim Eq popGroup popGroup := by
  intro s s' hs b t b' t' h1 h2
  unfold popGroup at h1 h2
  rw [hs.groups] at h1
  rcases hc : s'.groups with _ | ⟨c, l⟩ <;> rw [hc] at h1 h2
  · cases h1
  cases h1; cases h2
  exact ⟨rfl, hs.st, rfl, hs.ctxs, hs.stack⟩

theorem drainStack_sim {i : Nat} : QSim (List.Forall₂ SameTree) (drainStack i) (drainStack i) := by
  intro s s' hs b t b' t' h1 h2
  unfold drainStack at h1 h2
  have hl := hs.stack.length_eq
  rw [hl] at h1
  by_cases h : i ≤ s'.stack.length
  · rw [if_pos h] at h1 h2
    cases h1; cases h2
    exact ⟨List.rel_reverse (List.forall₂_take _ hs.stack), hs.st, hs.groups, hs.ctxs, List.forall₂_drop _ hs.stack⟩
  · rw [if_neg h] at h1; cases h1

theorem mkNode_sim {k : NodeKind} {cs cs' : List Cst} (h : List.Forall₂ SameTree cs cs') :
    QSim Eq (mkNode k cs) (mkNode k cs') := by
  unfold mkNode
  have : cs.isEmpty = cs'.isEmpty := by cases h <;> rfl
  rw [this]
  exact QSim.ite (fun _ => QSim.panic) fun _ => pushNode_sim (.node h)

theorem reduceNode_sim {k : NodeKind} : QSim Eq (reduceNode k) (reduceNode k) :=
  QSim.bindE popContext_sim fun _ => QSim.bind drainStack_sim fun _ _ h => mkNode_sim h

theorem reduceGroup_sim {k : NodeKind} : QSim Eq (reduceGroup k) (reduceGroup k) :=
  QSim.bindE popContext_sim fun _ => QSim.bindE popGroup_sim fun _ => QSim.bind drainStack_sim fun _ _ h => mkNode_sim h

theorem recoverP_sim {op : GroupOp} {cs cs' : List Cst} :
    QSim (fun _ _ => True) (recoverP envA op cs) (recoverP envB op cs') := by
  intro s s' hs b t b' t' h1 h2
  unfold recoverP at h1 h2
  simp only at h1 h2
  rcases hr : rcv op cs with e | r <;> rw [hr] at h1
  · cases h1
  rcases hr' : rcv' op cs' with e | r' <;> rw [hr'] at h2
  · cases h2
  cases h1; cases h2
  exact ⟨trivial, hs⟩

theorem reduceUnterminated_sim {op : GroupOp} : QSim Eq (reduceUnterminated envA op) (reduceUnterminated envB op) :=
  QSim.bindE popContext_sim fun _ => QSim.bindE popGroup_sim fun _ => QSim.bind drainStack_sim fun _ _ _ =>
    QSim.bind recoverP_sim fun _ _ _ => pushNode_sim .missing

theorem popNode_sim : QSim SameTree popNode popNode := by
  intro s s' hs b t b' t' h1 h2
  unfold popNode at h1 h2
  have hst := hs.stack
  rcases hs1 : s.stack with _ | ⟨c, l⟩ <;> rw [hs1] at h1 hst
  · cases h1
  rcases hs2 : s'.stack with _ | ⟨c', l'⟩ <;> rw [hs2] at h2 hst
  · cases h2
  cases h1; cases h2
  cases hst with | cons h1 h2 => exact ⟨h1, hs.st, hs.groups, hs.ctxs, h2⟩

theorem mkCall_sim {c c' : Cst} {hd hd' : List Cst} (h : SameTree c c') (hh : List.Forall₂ SameTree hd hd') :
    QSim Eq (mkCall c hd) (mkCall c' hd') := by
  cases h with
  | tok _ => exact QSim.panic
  | call _ _ => exact QSim.panic
  | callMissing _ => exact QSim.panic
  | @missing op cs cs' =>
    simp only [mkCall]
    cases op.toCall with
    | none => exact QSim.panic
    | some op' => exact pushNode_sim (.callMissing hh)
  | @node k cs cs' h =>
    unfold mkCall
    cases k with
    | group op =>
      simp only
      cases op.toCall with
      | none => exact QSim.panic
      | some op' => exact pushNode_sim (.call hh h)
    | groupMissingCloser op =>
      simp only
      cases op.toCall with
      | none => exact QSim.panic
      | some op' => exact pushNode_sim (.callMissing hh)
    | _ => exact QSim.panic

theorem reduceCall_sim : QSim Eq reduceCall reduceCall :=
  QSim.bindE popContext_sim fun _ => QSim.bind popNode_sim fun _ _ hb => QSim.bind drainStack_sim fun _ _ hh => mkCall_sim hb hh

theorem SameTree.isTrivia {c c' : Cst} (h : SameTree c c') : c.isTrivia = c'.isTrivia := by
  cases h with
  | tok h => show TK.isTrivia _ = TK.isTrivia _; rw [h.1]
  | _ => rfl

theorem find_same {l l' : List Cst} (h : List.Forall₂ SameTree l l') :
    Option.Rel SameTree (l.find? fun c => !c.isTrivia) (l'.find? fun c => !c.isTrivia) := by
  induction h with
  | nil => exact .none
  | @cons c c' l l' h _ ih =>
    rw [List.find?_cons, List.find?_cons, SameTree.isTrivia h]
    cases c'.isTrivia with
    | true => exact ih
    | false => exact .some h

theorem colonLhsOf_same {c c' : Cst} (h : SameTree c c') : colonLhsOf c = colonLhsOf c' := by
  cases h with
  | tok h => simp only [colonLhsOf]; rw [h.1]
  | @node k _ _ _ => cases k <;> rfl
  | _ => rfl

theorem isSpan_same {c c' : Cst} (h : SameTree c c') : isSpan c = isSpan c' := by
  cases h with
  | @node k _ _ _ =>
    cases k with
    | binary op => cases op <;> rfl
    | ternary op => cases op <;> rfl
    | _ => rfl
  | _ => rfl

theorem checkColonLhs_sim : QSim Eq checkColonLhs checkColonLhs := by
  intro s s' hs b t b' t' h1 h2
  unfold checkColonLhs at h1 h2
  have := find_same hs.stack
  rcases hf : s.stack.find? (fun c => !c.isTrivia) with _ | c <;> rw [hf] at h1 this
  · cases h1
  rcases hf' : s'.stack.find? (fun c => !c.isTrivia) with _ | c' <;> rw [hf'] at h2 this
  · cases h2
  cases this with
  | some h =>
    simp only at h1 h2
    rw [colonLhsOf_same h] at h1
    rcases hc : colonLhsOf c' with e | l <;> rw [hc] at h1 h2
    · cases h1
    cases h1; cases h2
    exact ⟨rfl, hs⟩

theorem topNodeIsSpan_sim : QSim Eq topNodeIsSpan topNodeIsSpan := by
  intro s s' hs b t b' t' h1 h2
  unfold topNodeIsSpan at h1 h2
  have := find_same hs.stack
  rcases hf : s.stack.find? (fun c => !c.isTrivia) with _ | c <;> rw [hf] at h1 this
  · cases h1
  rcases hf' : s'.stack.find? (fun c => !c.isTrivia) with _ | c' <;> rw [hf'] at h2 this
  · cases h2
  cases this with
  | some h =>
    simp only at h1 h2
    cases h1; cases h2
    exact ⟨isSpan_same h, hs⟩

theorem infixPrec_sim {k : TK} : QSim Eq (infixPrec k) (infixPrec k) := by
  intro s s' hs b t b' t' h1 h2
  unfold infixPrec at h1 h2
  rw [hs.topPrec, hs.ctxs] at h1
  rcases hk : k.infixParselet with _ | _ | _ | _ | _ | _ | _ | _ | _ | _ | _ | _ | _ | _ | _ | _ | _ | _ | _ | _ <;>
    rw [hk] at h1 h2 <;> cases h1 <;> cases h2 <;> exact ⟨rfl, hs⟩

theorem processImplicitTimes_sim {t t' : Tok} (h : SameTok t t') :
    QSim SameTok (processImplicitTimes t) (processImplicitTimes t') := by
  intro s s' hs b u b' u' h1 h2
  unfold processImplicitTimes at h1 h2
  rw [h.kind, hs.topPrec] at h1
  have hi := h.atStart .Fake_ImplicitTimes
  generalize hq : t'.kind.infixParselet = q at h1 h2
  cases q with
  | implicitTimes => cases h1; cases h2; exact ⟨hi, hs⟩
  | differentialD =>
    cases h1; cases h2
    refine ⟨?_, hs⟩
    split
    · exact h
    · exact hi
  | semiSemi =>
    simp only at h1 h2
    rcases hm : topNodeIsSpan s with e | ⟨x, v⟩ <;> rw [hm] at h1
    · cases h1
    rcases hm' : topNodeIsSpan s' with e | ⟨x', v'⟩ <;> rw [hm'] at h2
    · cases h2
    obtain ⟨h3, h4⟩ := topNodeIsSpan_sim s s' hs _ _ _ _ hm hm'
    subst h3
    cases h1; cases h2
    refine ⟨?_, h4⟩
    split
    · exact hi
    · exact h
  | _ => cases h1; cases h2; exact ⟨h, hs⟩

end
end CodeParser.Place
