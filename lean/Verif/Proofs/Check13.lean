import Verif.Model.CheckParser
import Verif.Proofs.Check12
import Verif.Proofs.Parser3
/-!
Helper lemmas: how the parser that looks for issues compares with the one that does not.
-/
namespace CodeParser.Chk.Par
open CodeParser (Bad Path WF SameAt MSim R)
open CodeParser.Spec (HasSurrogateEscape)

/-- The token lies in the text that starts at `z`. -/
structure Fits (cfg : Cfg) (z : St) (k : Tok) : Prop where
  front : ∃ cs, Path cfg z cs ⟨k.text ++ k.after, k.start, false, none⟩
  back : ∃ cs, Path cfg z cs ⟨k.after, k.stop, false, none⟩

/-- A position in the text that starts at `z`, not behind its end. -/
structure Amid (cfg : Cfg) (z t : St) : Prop where
  pos : Pos cfg z t
  eof : t.eof = false
  colz : ColOK z.loc

/-- The same state, apart from encoding errors noticed. -/
structure NearS (s s' : PS) : Prop where
  groups : s.groups = s'.groups
  ctxs : s.ctxs = s'.ctxs
  stack : s.stack = s'.stack
  st : Near s.st s'.st

/-- How the outcome of the parser with issues compares to that without issues: it is the same, or the
text cannot be read because of an escaped surrogate. -/
def OutS {α α'} (cfg : Cfg) (Q : St → St → List Ev → Prop) (z : St) (u : St) (ra : α → α' → Prop) :
    Except Err (α × PS) → Except Fail (α' × PS × List Ev) → Prop
  | .ok (a, t), .ok (a', t', es) => ra a a' ∧ NearS t t' ∧ Amid cfg z t'.st ∧ Q u t'.st es ∧ ∀ e ∈ es, Placed cfg (.all (Spot cfg z)) z e
  | .error e, .error e' => e' = .base e ∨ (e' = .base (.panic .surrogate) ∧ HasSurrogateEscape z.rest)
  | .ok _, .error e' => e' = .base (.panic .surrogate) ∧ HasSurrogateEscape z.rest
  | .error _, .ok _ => False

/-- The parser with issues does what the parser without issues does. -/
def SimS {α α'} (cfg : Cfg) (Q : St → St → List Ev → Prop) (z : St) (ra : α → α' → Prop) (m : CodeParser.P α) (m' : P α') : Prop :=
  ∀ s s', NearS s s' → Amid cfg z s'.st → OutS cfg Q z s'.st ra (m s) (m' s')

/-- Equal tokens that lie in the text. -/
def SameTok (cfg : Cfg) (z : St) (k k' : Tok) : Prop := k = k' ∧ Fits cfg z k

/-- Equal tokens that lie in the text, skipped ones and the one ahead; the skipped ones are not the end. -/
def SameToks (cfg : Cfg) (z : St) (p p' : List Tok × Tok) : Prop :=
  p = p' ∧ (∀ k ∈ p.1, Fits cfg z k) ∧ Fits cfg z p.2

section
variable {E : Env} {Q : St → St → List Ev → Prop} {z : St} {α α' β β' : Type}

theorem SimS.pure (L : Law E Q) {ra : α → α' → Prop} {a a'} (h : ra a a') :
    SimS E.cfg Q z ra (Pure.pure a) (Pure.pure a') :=
  fun _ _ hs hp => ⟨h, hs, hp, L.move rfl, fun _ h => by cases h⟩

theorem SimS.panic {ra : α → α' → Prop} {site : Site} : SimS E.cfg Q z ra (CodeParser.P.panic site) (P.panic site) :=
  fun _ _ _ _ => .inl rfl

theorem OutS.mono {ra rb : α → α' → Prop} (hr : ∀ a a', ra a a' → rb a a') {u : St} {x y} (h : OutS E.cfg Q z u ra x y) :
    OutS E.cfg Q z u rb x y := by
  rcases x with e | ⟨a, t⟩ <;> rcases y with e' | ⟨a', t', es⟩
  · exact h
  · exact h.elim
  · exact h
  · exact ⟨hr _ _ h.1, h.2⟩

theorem SimS.mono {ra rb : α → α' → Prop} {m m'} (hr : ∀ a a', ra a a' → rb a a') (h : SimS E.cfg Q z ra m m') :
    SimS E.cfg Q z rb m m' := fun s s' hs hp => (h s s' hs hp).mono hr

theorem SimS.bind (L : Law E Q) {ra : α → α' → Prop} {rb : β → β' → Prop}
    {m : CodeParser.P α} {m' : P α'} {f : α → CodeParser.P β} {f' : α' → P β'}
    (h : SimS E.cfg Q z ra m m') (hf : ∀ a a', ra a a' → SimS E.cfg Q z rb (f a) (f' a')) :
    SimS E.cfg Q z rb (m >>= f) (m' >>= f') := by
  intro s s' hs hp
  have h := h s s' hs hp
  show OutS E.cfg Q z s'.st rb (CodeParser.P.bind m f s) (P.bind m' f' s')
  unfold CodeParser.P.bind P.bind
  rcases hm : m s with e | ⟨a, t⟩ <;> rcases hm' : m' s' with e' | ⟨a', t', es⟩ <;> rw [hm, hm'] at h
  · exact h
  · exact h.elim
  · simp only
    rcases f a t with e | ⟨b, v⟩
    · exact .inr h
    · exact h
  · obtain ⟨h1, h2, h3, h4, h5⟩ := h
    have := hf a a' h1 t t' h2 h3
    simp only
    rcases hg : f a t with e | ⟨b, v⟩ <;> rcases hg' : f' a' t' with e' | ⟨b', v', fs⟩ <;> rw [hg, hg'] at this
    · exact this
    · exact this.elim
    · exact this
    · refine ⟨this.1, this.2.1, this.2.2.1, L.trans h4 this.2.2.2.1, fun e he => ?_⟩
      rcases List.mem_append.mp he with he | he
      · exact h5 e he
      · exact this.2.2.2.2 e he

theorem SimS.ite {ra : α → α' → Prop} {c : Prop} [Decidable c] {x y x' y'}
    (h1 : c → SimS E.cfg Q z ra x x') (h2 : ¬ c → SimS E.cfg Q z ra y y') :
    SimS E.cfg Q z ra (if c then x else y) (if c then x' else y') := by
  by_cases h : c
  · rw [if_pos h, if_pos h]; exact h1 h
  · rw [if_neg h, if_neg h]; exact h2 h

/-- Looking at the state. -/
theorem SimS.get (L : Law E Q) {rb : β → β' → Prop} {f : PS → CodeParser.P β} {f' : PS → P β'}
    (h : ∀ s s', NearS s s' → SimS E.cfg Q z rb (f s) (f' s')) : SimS E.cfg Q z rb (CodeParser.P.get >>= f) (P.get >>= f') :=
  SimS.bind (ra := NearS) L (fun _ _ hs hp => ⟨hs, hs, hp, L.move rfl, fun _ h => by cases h⟩) h

/-! ### Steps that do not read -/

/-- The step neither reads nor depends on the position. -/
def Silent (m : CodeParser.P α) : Prop :=
  ∀ s u, m { s with st := u } = match m s with
    | .ok (a, t) => .ok (a, { t with st := u })
    | .error e => .error e

theorem Silent.bind {m : CodeParser.P α} {f : α → CodeParser.P β} (hm : Silent m) (hf : ∀ a, Silent (f a)) : Silent (m >>= f) := by
  intro s u
  show CodeParser.P.bind m f _ = match CodeParser.P.bind m f s with | .ok (a, t) => _ | .error e => _
  unfold CodeParser.P.bind
  rw [hm s u]
  rcases m s with e | ⟨a, t⟩
  · rfl
  · exact hf a t u

theorem Silent.pure {a : α} : Silent (Pure.pure a : CodeParser.P α) := fun _ _ => rfl
theorem Silent.panic {e : Site} : Silent (CodeParser.P.panic e : CodeParser.P α) := fun _ _ => rfl

theorem Silent.sim (L : Law E Q) {m : CodeParser.P α} (hm : Silent m) : SimS E.cfg Q z Eq m (P.of m) := by
  intro s s' hs hp
  have e1 : s' = { s with st := s'.st } := by
    obtain ⟨a, b, c, d⟩ := s
    obtain ⟨a', b', c', d'⟩ := s'
    obtain ⟨h1, h2, h3, -⟩ := hs
    simp only at h1 h2 h3
    subst h1 h2 h3
    rfl
  have e2 := hm s s'.st
  have e3 := hm s s.st
  rw [← e1] at e2
  unfold P.of
  rw [e2]
  rcases h : m s with e | ⟨a, t⟩
  · exact .inl rfl
  · rw [h] at e3
    simp only [Except.ok.injEq, Prod.mk.injEq, true_and] at e3
    refine ⟨rfl, ⟨rfl, rfl, rfl, ?_⟩, hp, L.move rfl, fun _ h => by cases h⟩
    rw [e3]
    exact hs.st

theorem pushNode_silent {c : Cst} : Silent (CodeParser.pushNode c) := fun _ _ => rfl
theorem pushTok_silent {k : Tok} : Silent (CodeParser.pushTok k) := fun _ _ => rfl
theorem pushTrivia_silent {ts : List Tok} : Silent (CodeParser.pushTrivia ts) := fun _ _ => rfl
theorem pushContext_silent {p : Nat} : Silent (CodeParser.pushContext p) := by
  intro s u; unfold CodeParser.pushContext; rcases s with ⟨a, b, c, _ | ⟨d, e⟩⟩ <;> rfl
theorem setPrecedence_silent {p : Nat} : Silent (CodeParser.setPrecedence p) := by
  intro s u; unfold CodeParser.setPrecedence; rcases s with ⟨a, b, _ | ⟨⟨c, c'⟩, cs⟩, d⟩ <;> rfl
theorem popContext_silent : Silent CodeParser.popContext := by
  intro s u; unfold CodeParser.popContext; rcases s with ⟨a, b, _ | ⟨⟨c, c'⟩, cs⟩, d⟩ <;> rfl
theorem pushGroup_silent {c : Closer} : Silent (CodeParser.pushGroup c) := fun _ _ => rfl
theorem popGroup_silent : Silent CodeParser.popGroup := by
  intro s u; unfold CodeParser.popGroup; rcases s with ⟨a, _ | ⟨b, bs⟩, c, d⟩ <;> rfl
theorem drainStack_silent {i : Nat} : Silent (CodeParser.drainStack i) := by
  intro s u
  unfold CodeParser.drainStack
  simp only
  by_cases h : i ≤ s.stack.length
  · rw [if_pos h, if_pos h]
  · rw [if_neg h, if_neg h]
theorem mkNode_silent {k : NodeKind} {cs : List Cst} : Silent (CodeParser.mkNode k cs) := by
  unfold CodeParser.mkNode
  by_cases h : cs.isEmpty = true
  · rw [if_pos h]; exact .panic
  · rw [if_neg h]; exact pushNode_silent
theorem reduceNode_silent {k : NodeKind} : Silent (CodeParser.reduceNode k) :=
  .bind popContext_silent fun _ => .bind drainStack_silent fun _ => mkNode_silent
theorem reduceGroup_silent {k : NodeKind} : Silent (CodeParser.reduceGroup k) :=
  .bind popContext_silent fun _ => .bind popGroup_silent fun _ => .bind drainStack_silent fun _ => mkNode_silent
theorem recoverP_silent {env : CodeParser.PEnv} {op : GroupOp} {cs : List Cst} : Silent (CodeParser.recoverP env op cs) := by
  intro s u; unfold CodeParser.recoverP; rcases env.recover op cs with e | cs' <;> rfl
theorem reduceUnterminated_silent {env : CodeParser.PEnv} {op : GroupOp} : Silent (CodeParser.reduceUnterminated env op) :=
  .bind popContext_silent fun _ => .bind popGroup_silent fun _ => .bind drainStack_silent fun _ =>
    .bind recoverP_silent fun _ => pushNode_silent
theorem popNode_silent : Silent CodeParser.popNode := by
  intro s u; unfold CodeParser.popNode; rcases s with ⟨a, b, c, _ | ⟨d, e⟩⟩ <;> rfl
theorem mkCall_silent {b : Cst} {h : List Cst} : Silent (CodeParser.mkCall b h) := by
  unfold CodeParser.mkCall
  split
  · split
    · exact pushNode_silent
    · exact .panic
  · split
    · exact pushNode_silent
    · exact .panic
  · exact .panic
theorem reduceCall_silent : Silent CodeParser.reduceCall :=
  .bind popContext_silent fun _ => .bind popNode_silent fun _ => .bind drainStack_silent fun _ => mkCall_silent
theorem checkColonLhs_silent : Silent CodeParser.checkColonLhs := by
  intro s u
  unfold CodeParser.checkColonLhs
  cases hf : s.stack.find? (fun c => !c.isTrivia) with
  | none => simp only [hf]
  | some c =>
    simp only [hf]
    rcases colonLhsOf c with e | l <;> rfl
theorem topNodeIsSpan_silent : Silent CodeParser.topNodeIsSpan := by
  intro s u
  unfold CodeParser.topNodeIsSpan
  cases hf : s.stack.find? (fun c => !c.isTrivia) <;> simp only [hf]
theorem infixPrec_silent {k : TK} : Silent (CodeParser.infixPrec k) := by
  intro s u
  unfold CodeParser.infixPrec
  split <;> rfl
theorem processImplicitTimes_silent {k : Tok} : Silent (CodeParser.processImplicitTimes k) := by
  intro s u
  unfold CodeParser.processImplicitTimes
  split
  · rfl
  · rfl
  · rw [topNodeIsSpan_silent s u]
    rcases CodeParser.topNodeIsSpan s with e | ⟨b, t⟩ <;> rfl
  · rfl
theorem assertQuiescent_silent : Silent CodeParser.assertQuiescent := by
  intro s u
  unfold CodeParser.assertQuiescent
  simp only
  by_cases h : (s.ctxs.isEmpty && s.groups.isEmpty) = true
  · rw [if_pos h, if_pos h]
  · rw [if_neg h, if_neg h]

/-! ### Reading -/

theorem Fits.atStart {cfg : Cfg} {k : Tok} {K : TK} (h : Fits cfg z k) : Fits cfg z (k.atStart K) := ⟨h.front, h.front⟩

theorem Amid.skip {cfg : Cfg} {k : Tok} {t : St} (h : Amid cfg z t) (hk : Fits cfg z k) (hne : k.kind ≠ .EndOfFile) :
    Amid cfg z (k.skipSt t) := by
  obtain ⟨cs, hc⟩ := hk.back
  have he : (k.kind == TK.EndOfFile) = false := by simpa using hne
  refine ⟨⟨h.pos.wfz, ?_, ⟨cs, hc.congr_right rfl rfl⟩, ?_, h.pos.blame⟩, he, h.colz⟩
  · intro h; exact absurd (he.symm.trans h) (by decide)
  · exact path_col (t := ⟨k.after, k.stop, false, none⟩) hc h.pos.wfz h.colz

theorem Amid.reset {cfg : Cfg} {k : Tok} {t : St} (h : Amid cfg z t) (hk : Fits cfg z k) :
    Amid cfg z { t with rest := k.text ++ k.after, loc := k.start } := by
  obtain ⟨cs, hc⟩ := hk.front
  refine ⟨⟨h.pos.wfz, ?_, ⟨cs, hc.congr_right rfl rfl⟩, ?_, h.pos.blame⟩, h.eof, h.colz⟩
  · intro h'; exact absurd (h.eof.symm.trans h') (by decide)
  · exact path_col (t := ⟨k.text ++ k.after, k.start, false, none⟩) hc h.pos.wfz h.colz

theorem skipP_sim (L : Law E Q) {k : Tok} (hk : Fits E.cfg z k) (hne : k.kind ≠ .EndOfFile) :
    SimS E.cfg Q z Eq (CodeParser.skipP k) (skipP k) :=
  fun _ _ hs hp => ⟨rfl, ⟨hs.groups, hs.ctxs, hs.stack, ⟨rfl, rfl, rfl⟩, hs.st.flag⟩, hp.skip hk hne, L.move rfl, fun _ h => by cases h⟩

theorem reset_sim (L : Law E Q) {k : Tok} (hk : Fits E.cfg z k) :
    SimS E.cfg Q z Eq (CodeParser.P.lift k.reset) (P.lift (M.lift k.reset)) :=
  fun _ _ hs hp => ⟨rfl, ⟨hs.groups, hs.ctxs, hs.stack, ⟨rfl, rfl, hs.st.same.eof⟩, hs.st.flag⟩, hp.reset hk, L.move rfl, fun _ h => by cases h⟩

theorem fits_of_peeked {cfg : Cfg} {k : Tok} {s u t : St} (h : Peeked cfg s k t) (hs : WF s) (hu : Pos cfg z u) (hsu : SameAt s u) :
    Fits cfg z k := by
  obtain ⟨cs, hc⟩ := hu.path
  obtain ⟨ds, hd, -⟩ := h.skip.path
  have hd : Path cfg u ds ⟨k.after, k.stop, false, none⟩ := (hd.congr_left hs hu.wf hsu.rest.symm hsu.loc.symm).congr_right rfl rfl
  refine ⟨⟨cs, hc.congr_right ?_ ?_⟩, ⟨cs ++ ds, hc.trans hd hu.wfz hu.wf⟩⟩
  · exact h.split.trans hsu.rest
  · exact h.start.trans hsu.loc

/-! ### Computations of the tokenizer -/

/-- `OutS` for computations of the tokenizer. -/
def OutM {α α'} (cfg : Cfg) (Q : St → St → List Ev → Prop) (z : St) (u : St) (ra : α → α' → Prop) :
    Except Err (α × St) → Except Fail (α' × St × List Ev) → Prop
  | .ok (a, t), .ok (a', t', es) => ra a a' ∧ Near t t' ∧ Amid cfg z t' ∧ Q u t' es ∧ ∀ e ∈ es, Placed cfg (.all (Spot cfg z)) z e
  | .error e, .error e' => e' = .base e ∨ (e' = .base (.panic .surrogate) ∧ HasSurrogateEscape z.rest)
  | .ok _, .error e' => e' = .base (.panic .surrogate) ∧ HasSurrogateEscape z.rest
  | .error _, .ok _ => False

/-- `SimS` for computations of the tokenizer. -/
def SimM {α α'} (cfg : Cfg) (Q : St → St → List Ev → Prop) (z : St) (ra : α → α' → Prop) (m : CodeParser.M α) (m' : M α') : Prop :=
  ∀ s s', Near s s' → Amid cfg z s' → OutM cfg Q z s' ra (m s) (m' s')

theorem SimM.lift {ra : α → α' → Prop} {m : CodeParser.M α} {m' : M α'} (h : SimM E.cfg Q z ra m m') :
    SimS E.cfg Q z ra (CodeParser.P.lift m) (P.lift m') := by
  intro s s' hs hp
  have := h s.st s'.st hs.st hp
  unfold CodeParser.P.lift P.lift
  rcases h1 : m s.st with e | ⟨a, t⟩ <;> rcases h2 : m' s'.st with e' | ⟨a', t', es⟩ <;> rw [h1, h2] at this
  · exact this
  · exact this.elim
  · exact this
  · exact ⟨this.1, ⟨hs.groups, hs.ctxs, hs.stack, this.2.1⟩, this.2.2⟩

theorem SimM.pure (L : Law E Q) {ra : α → α' → Prop} {a a'} (h : ra a a') :
    SimM E.cfg Q z ra (Pure.pure a) (Pure.pure a') :=
  fun _ _ hs hp => ⟨h, hs, hp, L.move rfl, fun _ h => by cases h⟩

theorem SimM.bind (L : Law E Q) {ra : α → α' → Prop} {rb : β → β' → Prop}
    {m : CodeParser.M α} {m' : M α'} {f : α → CodeParser.M β} {f' : α' → M β'}
    (h : SimM E.cfg Q z ra m m') (hf : ∀ a a', ra a a' → SimM E.cfg Q z rb (f a) (f' a')) :
    SimM E.cfg Q z rb (m >>= f) (m' >>= f') := by
  intro s s' hs hp
  have h := h s s' hs hp
  show OutM E.cfg Q z s' rb (CodeParser.M.bind m f s) (M.bind m' f' s')
  unfold CodeParser.M.bind M.bind
  rcases hm : m s with e | ⟨a, t⟩ <;> rcases hm' : m' s' with e' | ⟨a', t', es⟩ <;> rw [hm, hm'] at h
  · exact h
  · exact h.elim
  · simp only
    rcases f a t with e | ⟨b, v⟩
    · exact .inr h
    · exact h
  · obtain ⟨h1, h2, h3, h4, h5⟩ := h
    have := hf a a' h1 t t' h2 h3
    simp only
    rcases hg : f a t with e | ⟨b, v⟩ <;> rcases hg' : f' a' t' with e' | ⟨b', v', fs⟩ <;> rw [hg, hg'] at this
    · exact this
    · exact this.elim
    · exact this
    · refine ⟨this.1, this.2.1, this.2.2.1, L.trans h4 this.2.2.2.1, fun e he => ?_⟩
      rcases List.mem_append.mp he with he | he
      · exact h5 e he
      · exact this.2.2.2.2 e he

theorem SimM.ite {ra : α → α' → Prop} {c : Prop} [Decidable c] {x y x' y'}
    (h1 : c → SimM E.cfg Q z ra x x') (h2 : ¬ c → SimM E.cfg Q z ra y y') :
    SimM E.cfg Q z ra (if c then x else y) (if c then x' else y') := by
  by_cases h : c
  · rw [if_pos h, if_pos h]; exact h1 h
  · rw [if_neg h, if_neg h]; exact h2 h

theorem SimM.loopN (L : Law E Q) {ra : α → α' → Prop} {rb : β → β' → Prop} {body : β → CodeParser.M (β ⊕ α)} {body' : β' → M (β' ⊕ α')}
    (h : ∀ b b', rb b b' → SimM E.cfg Q z (Sum.LiftRel rb ra) (body b) (body' b')) (n : Nat) :
    ∀ b b', rb b b' → SimM E.cfg Q z ra (CodeParser.M.loopN body n b) (M.loopN body' n b') := by
  induction n with
  | zero => intro b b' _ s s' _ _; exact .inl rfl
  | succ n ih =>
    intro b b' hb s s' hs hp
    have h1 := h b b' hb s s' hs hp
    unfold CodeParser.M.loopN M.loopN
    rcases hm : body b s with e | ⟨x, t⟩ <;> rcases hm' : body' b' s' with e' | ⟨x', t', es⟩ <;> rw [hm, hm'] at h1
    · exact h1
    · exact h1.elim
    · simp only
      rcases x with b1 | a
      · simp only
        rcases CodeParser.M.loopN body n b1 t with e | ⟨b, v⟩
        · exact .inr h1
        · exact h1
      · exact h1
    · obtain ⟨hx, h2, h3, h4, h5⟩ := h1
      cases hx with
      | inr hx => exact ⟨hx, h2, h3, h4, h5⟩
      | inl hx =>
        have := ih _ _ hx t t' h2 h3
        simp only
        rename_i c c'
        rcases hg : CodeParser.M.loopN body n c t with e | ⟨b, u⟩ <;>
          rcases hg' : M.loopN body' n c' t' with e' | ⟨b', u', fs⟩ <;> rw [hg, hg'] at this
        · exact this
        · exact this.elim
        · exact this
        · refine ⟨this.1, this.2.1, this.2.2.1, L.trans h4 this.2.2.2.1, fun e he => ?_⟩
          rcases List.mem_append.mp he with he | he
          · exact h5 e he
          · exact this.2.2.2.2 e he

theorem SimM.loop (L : Law E Q) {ra : α → α' → Prop} (rb : β → β' → Prop) {body : β → CodeParser.M (β ⊕ α)}
    {body' : β' → M (β' ⊕ α')} {b : β} {b' : β'}
    (h : ∀ b b', rb b b' → SimM E.cfg Q z (Sum.LiftRel rb ra) (body b) (body' b')) (hb : rb b b') :
    SimM E.cfg Q z ra (CodeParser.M.loop body b) (M.loop body' b') := by
  intro s s' hs hp
  unfold CodeParser.M.loop M.loop
  rw [hs.same.rest]
  exact SimM.loopN L h _ b b' hb s s' hs hp

theorem skipM_sim (L : Law E Q) {k : Tok} (hk : Fits E.cfg z k) (hne : k.kind ≠ .EndOfFile) :
    SimM E.cfg Q z Eq k.skip (M.lift k.skip) :=
  fun _ _ hs hp => ⟨rfl, ⟨⟨rfl, rfl, rfl⟩, hs.flag⟩, hp.skip hk hne, L.move rfl, fun _ h => by cases h⟩

/-- Looking at a token, from what is known about the tokenizer. -/
theorem peekM {m : CodeParser.M Tok} {m' : M Tok} {D : Tok → St → Fail → Prop}
    (hm : ∀ s s', Near s s' → Pos E.cfg s' s' → Out E.cfg (Is s') D s' Eq (m s) (m' s'))
    (hQ : Obeys Q m')
    (hw : ∀ s, WF s → s.eof = false → wp (EE s.rest) m s fun k t => Peeked E.cfg s k t)
    (hD : ∀ s k t f, D k t f → m s = .ok (k, t) → WF s → f = .base (.panic .surrogate) ∧ HasSurrogateEscape s.rest) :
    SimM E.cfg Q z (SameTok E.cfg z) m m' := by
  intro s s' hs hp
  have hpos := hp.pos
  have h := hm s s' hs hpos.self
  have hwf := hs.wf hpos.wf
  have h2 := hw s hwf (hs.same.eof.trans hp.eof)
  unfold wp at h2
  have hsur : HasSurrogateEscape s.rest → HasSurrogateEscape z.rest := by
    obtain ⟨pre, h1, -⟩ := hpos.moves
    intro h3
    rw [hs.same.rest] at h3
    exact ((EE.mono ⟨pre, h1⟩ (e := .panic .surrogate) ⟨rfl, h3⟩)).2
  rcases h1 : m s with e | ⟨a, t⟩ <;> rcases h3 : m' s' with e' | ⟨a', t', es⟩ <;> rw [h1, h3] at h <;> rw [h1] at h2
  · exact .inl h
  · exact h.elim
  · obtain ⟨g1, g2⟩ := hD _ _ _ _ h h1 hwf
    exact ⟨g1, hsur g2⟩
  · obtain ⟨rfl, h4, h5, h6⟩ := h
    refine ⟨⟨rfl, fits_of_peeked h2 hwf hpos hs.same⟩, h4, ⟨hpos.trans h5, ?_, hp.colz⟩, hQ _ _ _ _ h3, fun e he => ?_⟩
    · rw [← h4.same.eof, ← h2.same.eof]; exact hs.same.eof.trans hp.eof
    · refine ((h6 e he).up hpos).mono' fun l hl => ⟨_, hpos, hl⟩

theorem peekWith_sim (L : Law E Q) {pol : Pol} {g : Bool} :
    SimM E.cfg Q z (SameTok E.cfg z) (CodeParser.peekTokenWith E.cfg pol g) (peekTokenWith E pol g) := by
  refine peekM (D := StuckP E.cfg) (fun s s' hs hp => peek_out hs hp) (peekTokenWith_o L (.refl E))
    (fun s hs _ => wp_mono (peekTokenWith_wp hs) (fun _ h => h) fun _ _ h => h.toPeeked) ?_
  intro s k t f hf hk hs
  obtain ⟨-, e, h1, rfl⟩ := hf
  have h2 := peekTokenWith_wp (cfg := E.cfg) (pol := pol) (g := g) hs
  unfold wp at h2
  rw [hk] at h2
  have h3 := nextC_wp (cfg := E.cfg) h2.skip.wf
  unfold wp at h3
  rw [h1] at h3
  obtain ⟨rfl, h4⟩ := h3
  exact ⟨rfl, ((EE.mono ⟨k.text, h2.split.symm⟩ (e := .panic .surrogate) ⟨rfl, h4⟩)).2⟩

theorem peekTop_sim (L : Law E Q) {g : Bool} :
    SimM E.cfg Q z (SameTok E.cfg z) (CodeParser.peekToken E.cfg g) (peekToken E g) := peekWith_sim L

theorem peekTag_sim (L : Law E Q) : SimM E.cfg Q z (SameTok E.cfg z) (CodeParser.peekTokenTag E.cfg) (peekTokenTag E) :=
  peekM (D := never) (fun _ _ hs hp => peekTag_out hs hp) (peekTokenTag_o L (.refl E))
    (fun _ hs he => wp_mono (peekTokenTag_wp hs he) (fun _ h => h) fun _ _ h => h.toPeeked) (fun _ _ _ _ h => h.elim)

theorem peekFile_sim (L : Law E Q) : SimM E.cfg Q z (SameTok E.cfg z) (CodeParser.peekTokenFile E.cfg) (peekTokenFile E) :=
  peekM (D := never) (fun _ _ hs hp => peekFile_out hs hp) (peekTokenFile_o L (.refl E))
    (fun _ hs he => wp_mono (peekTokenFile_wp hs he) (fun _ h => h) fun _ _ h => h.toPeeked) (fun _ _ _ _ h => h.elim)

/-- Tokens collected by a loop. -/
def AllFit (cfg : Cfg) (z : St) (ks ks' : List Tok) : Prop := ks = ks' ∧ ∀ k ∈ ks, Fits cfg z k

theorem AllFit.snoc {cfg : Cfg} {ks ks' : List Tok} {k : Tok} (h : AllFit cfg z ks ks') (hk : Fits cfg z k) :
    AllFit cfg z (ks ++ [k]) (ks' ++ [k]) := by
  obtain ⟨rfl, h⟩ := h
  refine ⟨rfl, fun x hx => ?_⟩
  rcases List.mem_append.mp hx with hx | hx
  · exact h x hx
  · rw [List.mem_singleton.mp hx]; exact hk

theorem eatM_sim (L : Law E Q) {g : Bool} {p : TK → Bool} (hp : p .EndOfFile = false) :
    SimM E.cfg Q z (SameToks E.cfg z) (CodeParser.eatM E.cfg g p) (eatM E g p) := by
  unfold CodeParser.eatM eatM
  refine SimM.loop L (AllFit E.cfg z) ?_ ⟨rfl, fun _ h => by cases h⟩
  intro ts ts' hts
  refine SimM.bind L (peekTop_sim L) ?_
  rintro k _ ⟨rfl, hk⟩
  refine SimM.ite (fun h => ?_) (fun _ => ?_)
  · refine SimM.bind L (skipM_sim L hk fun h' => by rw [h', hp] at h; cases h) ?_
    rintro _ _ -
    exact SimM.pure L (.inl (hts.snoc hk))
  · obtain ⟨rfl, hts⟩ := hts
    exact SimM.pure L (.inr ⟨rfl, hts, hk⟩)

theorem eatFileM_sim (L : Law E Q) :
    SimM E.cfg Q z (SameToks E.cfg z) (CodeParser.eatFileM E.cfg) (eatFileM E) := by
  unfold CodeParser.eatFileM eatFileM
  refine SimM.loop L (AllFit E.cfg z) ?_ ⟨rfl, fun _ h => by cases h⟩
  intro ts ts' hts
  refine SimM.bind L (peekFile_sim L) ?_
  rintro k _ ⟨rfl, hk⟩
  refine SimM.ite (fun h => ?_) (fun _ => ?_)
  · refine SimM.bind L (skipM_sim L hk fun h' => by rw [h'] at h; exact absurd h (by decide)) ?_
    rintro _ _ -
    exact SimM.pure L (.inl (hts.snoc hk))
  · obtain ⟨rfl, hts⟩ := hts
    exact SimM.pure L (.inr ⟨rfl, hts, hk⟩)

theorem handleFirstLine_sim (L : Law E Q) {first : FirstLine} :
    SimM E.cfg Q z Eq (CodeParser.handleFirstLine E.cfg first) (handleFirstLine E first) := by
  have key : SimM E.cfg Q z Eq (CodeParser.handleFirstLine E.cfg .check) (handleFirstLine E .check) := by
    unfold CodeParser.handleFirstLine handleFirstLine
    refine SimM.bind L (peekTop_sim L) ?_
    rintro k _ ⟨rfl, hk⟩
    refine SimM.ite (fun h => SimM.pure L rfl) (fun h => ?_)
    refine SimM.bind L (skipM_sim L hk fun h' => h (by rw [h']; decide)) ?_
    rintro _ _ -
    refine SimM.bind L (peekTop_sim L) ?_
    rintro k _ ⟨rfl, hk⟩
    refine SimM.ite (fun h => SimM.pure L rfl) (fun h => ?_)
    refine SimM.bind L (skipM_sim L hk fun h' => h (by rw [h']; decide)) ?_
    rintro _ _ -
    refine SimM.loop L Eq ?_ rfl
    rintro _ _ -
    refine SimM.bind L (peekTop_sim L) ?_
    rintro k _ ⟨rfl, hk⟩
    refine SimM.ite (fun h => SimM.pure L (.inr rfl)) (fun h0 => SimM.ite (fun h => ?_) (fun h => ?_))
    · refine SimM.bind L (skipM_sim L hk h0) ?_
      rintro _ _ -
      exact SimM.pure L (.inr rfl)
    · refine SimM.bind L (skipM_sim L hk h0) ?_
      rintro _ _ -
      exact SimM.pure L (.inl rfl)
  cases first with
  | notScript => exact SimM.pure L rfl
  | check => exact key
  | script => exact key

/-! ### Steps of the parser that read -/

theorem peekP_sim (L : Law E Q) {rc} : SimS E.cfg Q z (SameTok E.cfg z) (CodeParser.peekP ⟨E.cfg, rc⟩) (peekP ⟨E, rc⟩) := by
  intro s s' hs hp
  unfold CodeParser.peekP peekP
  rw [hs.groups]
  exact (peekTop_sim L).lift s s' hs hp

theorem peekWithP_sim (L : Law E Q) {rc} {pol : Pol} :
    SimS E.cfg Q z (SameTok E.cfg z) (CodeParser.peekWithP ⟨E.cfg, rc⟩ pol) (peekWithP ⟨E, rc⟩ pol) := by
  intro s s' hs hp
  unfold CodeParser.peekWithP peekWithP
  rw [hs.groups]
  exact (peekWith_sim L).lift s s' hs hp

theorem currentToken_sim (L : Law E Q) {rc} :
    SimS E.cfg Q z (SameToks E.cfg z) (CodeParser.currentToken ⟨E.cfg, rc⟩) (currentToken ⟨E, rc⟩) := by
  intro s s' hs hp
  unfold CodeParser.currentToken currentToken
  rw [hs.groups]
  exact (eatM_sim L (by decide)).lift s s' hs hp

theorem currentTokenNTN_sim (L : Law E Q) {rc} :
    SimS E.cfg Q z (SameToks E.cfg z) (CodeParser.currentTokenNTN ⟨E.cfg, rc⟩) (currentTokenNTN ⟨E, rc⟩) := by
  intro s s' hs hp
  unfold CodeParser.currentTokenNTN currentTokenNTN
  rw [hs.groups]
  exact (eatM_sim L (by decide)).lift s s' hs hp

theorem pushNext_sim (L : Law E Q) {k : Tok} (hk : Fits E.cfg z k) (hne : k.kind ≠ .EndOfFile) :
    SimS E.cfg Q z Eq (CodeParser.pushNext k) (pushNext k) :=
  SimS.bind L (Silent.sim L pushTok_silent) fun _ _ _ => skipP_sim L hk hne

theorem triviaReset_sim (L : Law E Q) {ts : List Tok} (h : ∀ k ∈ ts, Fits E.cfg z k) :
    SimS E.cfg Q z Eq (CodeParser.triviaReset ts) (triviaReset ts) := by
  cases ts with
  | nil => exact SimS.pure L rfl
  | cons k ks => exact reset_sim L (h k (List.mem_cons_self ..))

theorem eatTrivia_sim (L : Law E Q) {rc} :
    SimS E.cfg Q z (SameTok E.cfg z) (CodeParser.eatTrivia ⟨E.cfg, rc⟩) (eatTrivia ⟨E, rc⟩) := by
  unfold CodeParser.eatTrivia eatTrivia
  refine SimS.bind L (currentToken_sim L) ?_
  rintro ⟨ts, k⟩ _ ⟨rfl, h1, h2⟩
  exact SimS.bind L (Silent.sim L pushTrivia_silent) fun _ _ _ => SimS.pure L ⟨rfl, h2⟩

theorem eatTriviaNTN_sim (L : Law E Q) {rc} :
    SimS E.cfg Q z (SameTok E.cfg z) (CodeParser.eatTriviaNTN ⟨E.cfg, rc⟩) (eatTriviaNTN ⟨E, rc⟩) := by
  unfold CodeParser.eatTriviaNTN eatTriviaNTN
  refine SimS.bind L (currentTokenNTN_sim L) ?_
  rintro ⟨ts, k⟩ _ ⟨rfl, h1, h2⟩
  exact SimS.bind L (Silent.sim L pushTrivia_silent) fun _ _ _ => SimS.pure L ⟨rfl, h2⟩

theorem eatTriviaFile_sim (L : Law E Q) {rc} :
    SimS E.cfg Q z (SameTok E.cfg z) (CodeParser.eatTriviaFile ⟨E.cfg, rc⟩) (eatTriviaFile ⟨E, rc⟩) := by
  unfold CodeParser.eatTriviaFile eatTriviaFile
  refine SimS.bind L (eatFileM_sim L).lift ?_
  rintro ⟨ts, k⟩ _ ⟨rfl, h1, h2⟩
  exact SimS.bind L (Silent.sim L pushTrivia_silent) fun _ _ _ => SimS.pure L ⟨rfl, h2⟩

theorem commitNext_sim (L : Law E Q) {ts : List Tok} {k : Tok} (hk : Fits E.cfg z k) (hne : k.kind ≠ .EndOfFile) :
    SimS E.cfg Q z Eq (CodeParser.commitNext ts k) (commitNext ts k) :=
  SimS.bind L (Silent.sim L pushTrivia_silent) fun _ _ _ => pushNext_sim L hk hne

theorem processImplicitTimes_sim (L : Law E Q) {k : Tok} (hk : Fits E.cfg z k) :
    SimS E.cfg Q z (fun j j' => SameTok E.cfg z j j' ∧ (j = k ∨ j = k.atStart .Fake_ImplicitTimes))
      (CodeParser.processImplicitTimes k) (processImplicitTimes k) := by
  intro s s' hs hp
  have h := Silent.sim (E := E) (z := z) L (processImplicitTimes_silent (k := k)) s s' hs hp
  have key : ∀ j t, CodeParser.processImplicitTimes k s = .ok (j, t) → j = k ∨ j = k.atStart .Fake_ImplicitTimes := by
    intro j t
    unfold CodeParser.processImplicitTimes
    split
    · intro h; cases h; exact .inr rfl
    · split
      · intro h; cases h; exact .inl rfl
      · intro h; cases h; exact .inr rfl
    · rcases CodeParser.topNodeIsSpan s with e | ⟨b, t⟩
      · intro h; cases h
      · cases b
        · intro h; cases h; exact .inl rfl
        · intro h; cases h; exact .inr rfl
    · intro h; cases h; exact .inl rfl
  unfold processImplicitTimes
  rcases h1 : CodeParser.processImplicitTimes k s with e | ⟨j, t⟩ <;> rcases h2 : P.of (CodeParser.processImplicitTimes k) s' with e' | ⟨j', t', es⟩ <;>
    rw [h1, h2] at h
  · exact h
  · exact h.elim
  · exact h
  · obtain ⟨rfl, h⟩ := h
    refine ⟨⟨⟨rfl, ?_⟩, key _ _ h1⟩, h⟩
    rcases key _ _ h1 with rfl | rfl
    · exact hk
    · exact hk.atStart

end
end CodeParser.Chk.Par
