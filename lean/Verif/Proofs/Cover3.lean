import Verif.Proofs.Check14
import Verif.Proofs.Cover2
/-!
Helper lemmas: the parser that looks for issues stays at places that are known to be reached (see
Proofs/Cover1.lean).
-/
namespace CodeParser.Chk.Par.Cov
open CodeParser.Chk.Cov

/-- `Cover` at positions as they are counted. -/
structure CoverC (E : Env) (L : Ev → Prop) (K : List UInt8 → Loc → Prop) : Prop extends Cover E L K where
  col : ∀ {r l}, K r l → ColOK l

/-- The parser is at a place where `K` holds, not behind the end of the text. -/
def InP (K : List UInt8 → Loc → Prop) (s : PS) : Prop := s.st.eof = false ∧ K s.st.rest s.st.loc

/-- The parser stays within `K` and gives something for which `Q` holds, if all events satisfy `L`. -/
def PG {α : Type} (L : Ev → Prop) (K : List UInt8 → Loc → Prop) (Q : α → Prop) (m : P α) : Prop :=
  ∀ s a t es, InP K s → m s = .ok (a, t, es) → (∀ e ∈ es, L e) → InP K t ∧ Q a

/-- The parser stays within `K`, if all events satisfy `L`. -/
abbrev PK {α : Type} (L : Ev → Prop) (K : List UInt8 → Loc → Prop) (m : P α) : Prop := PG L K (fun _ => True) m

/-- Trivia and the token behind them start and end where `K` holds. -/
def ToksIn (K : List UInt8 → Loc → Prop) (p : List Tok × Tok) : Prop := (∀ k ∈ p.1, TokIn K k) ∧ TokIn K p.2

/-- The tokens of the job are where `K` holds; loops are for operators and brackets that exist. -/
def JobIn (K : List UInt8 → Loc → Prop) : Job → Prop
  | .prefix t => TokIn K t
  | .infix t => TokIn K t
  | .groupLoop c _ => ∃ k, groupOpenerToCloser k = some c
  | .infixLoop op => op ≠ .CodeParser_InternalInvalid
  | _ => True

/-- The recursive calls stay within `K`. -/
def RecIn (L : Ev → Prop) (K : List UInt8 → Loc → Prop) (rec : Job → P Unit) : Prop := ∀ j, JobIn K j → PK L K (rec j)

section
variable {E : Env} {L : Ev → Prop} {K : List UInt8 → Loc → Prop} {rc : GroupOp → List Cst → Except Err (List Cst)}
  {rec : Job → P Unit} {α β : Type} {Q : α → Prop} {Q' : β → Prop}

theorem PG.pure {a : α} (h : Q a) : PG L K Q (Pure.pure a : P α) := by
  intro s b t es hs h _
  cases h
  exact ⟨hs, ‹_›⟩

theorem PG.panic {e : Site} : PG L K Q (P.panic e : P α) := by
  intro s a t es _ h
  cases h

theorem PG.bind {m : P α} {f : α → P β} (hm : PG L K Q m) (hf : ∀ a, Q a → PG L K Q' (f a)) : PG L K Q' (m >>= f) := by
  intro s b u es hs h hl
  change P.bind m f s = _ at h
  unfold P.bind at h
  rcases h1 : m s with e | ⟨a, t, es1⟩ <;> rw [h1] at h
  · cases h
  · simp only at h
    rcases h2 : f a t with e | ⟨b', u', es2⟩ <;> rw [h2] at h
    · cases h
    · cases h
      obtain ⟨h3, h4⟩ := hm _ _ _ _ hs h1 fun e he => hl e (List.mem_append_left _ he)
      exact hf a h4 _ _ _ _ h3 h2 fun e he => hl e (List.mem_append_right _ he)

theorem PK.then {m : P Unit} {f : Unit → P β} (hm : PK L K m) (hf : PG L K Q' (f ())) : PG L K Q' (m >>= f) :=
  PG.bind hm fun _ _ => hf

theorem PG.ite {c : Prop} [Decidable c] {a b : P α} (h1 : c → PG L K Q a) (h2 : ¬ c → PG L K Q b) : PG L K Q (if c then a else b) := by
  by_cases h : c
  · rw [if_pos h]; exact h1 h
  · rw [if_neg h]; exact h2 h

theorem PG.get {f : PS → P β} (h : ∀ s, PG L K Q' (f s)) : PG L K Q' (P.get >>= f) :=
  PG.bind (Q := fun _ => True) (fun s a t es hs hr _ => by cases hr; exact ⟨hs, trivial⟩) fun s _ => h s

/-- Steps that do not read. -/
theorem _root_.CodeParser.Chk.Par.Silent.pk {m : CodeParser.P α} (hm : Silent m) : PK L K (P.of m) := by
  intro s a t es hs h _
  unfold P.of at h
  rcases h1 : m s with e | ⟨a', t'⟩ <;> rw [h1] at h
  · cases h
  · have h2 := hm s s.st
    rw [h1] at h2
    simp only [Except.ok.injEq, Prod.mk.injEq, true_and] at h2
    cases h
    refine ⟨?_, trivial⟩
    rw [h2]
    exact hs

macro "stillK" : tactic => `(tactic| first
  | exact Silent.pk pushNode_silent
  | exact Silent.pk pushTok_silent
  | exact Silent.pk pushTrivia_silent
  | exact Silent.pk pushContext_silent
  | exact Silent.pk setPrecedence_silent
  | exact Silent.pk pushGroup_silent
  | exact Silent.pk reduceNode_silent
  | exact Silent.pk reduceGroup_silent
  | exact Silent.pk reduceCall_silent
  | exact Silent.pk reduceUnterminated_silent
  | exact Silent.pk checkColonLhs_silent
  | exact Silent.pk infixPrec_silent
  | exact Silent.pk popNode_silent
  | exact Silent.pk assertQuiescent_silent)

/-! ### Reading -/

/-- The tokenizer within `K`, not behind the end of the text. -/
def MG {α : Type} (L : Ev → Prop) (K : List UInt8 → Loc → Prop) (Q : α → Prop) (m : M α) : Prop :=
  ∀ s a t es, (s.eof = false ∧ K s.rest s.loc) → m s = .ok (a, t, es) → (∀ e ∈ es, L e) → (t.eof = false ∧ K t.rest t.loc) ∧ Q a

theorem MG.lift {m : M α} (h : MG L K Q m) : PG L K Q (P.lift m) := by
  intro s a t es hs hr hl
  unfold P.lift at hr
  rcases h1 : m s.st with e | ⟨a', t', es'⟩ <;> rw [h1] at hr
  · cases hr
  · cases hr
    exact h _ _ _ _ hs h1 hl

theorem MG.bind {m : M α} {f : α → M β} (hm : MG L K Q m) (hf : ∀ a, Q a → MG L K Q' (f a)) : MG L K Q' (m >>= f) := by
  intro s b u es hs h hl
  obtain ⟨a, t, es1, es2, h1, h2, rfl⟩ := bind_split h
  obtain ⟨h3, h4⟩ := hm _ _ _ _ hs h1 fun e he => hl e (List.mem_append_left _ he)
  exact hf a h4 _ _ _ _ h3 h2 fun e he => hl e (List.mem_append_right _ he)

theorem MG.pure {a : α} (h : Q a) : MG L K Q (Pure.pure a : M α) := by
  intro s b t es hs h _
  cases h
  exact ⟨hs, ‹_›⟩

theorem MG.ite {c : Prop} [Decidable c] {a b : M α} (h1 : c → MG L K Q a) (h2 : ¬ c → MG L K Q b) : MG L K Q (if c then a else b) := by
  by_cases h : c
  · rw [if_pos h]; exact h1 h
  · rw [if_neg h]; exact h2 h

theorem MG.loop {body : β → M (β ⊕ α)} (I : β → Prop) (h : ∀ b, I b → MG L K (fun | .inl b => I b | .inr a => Q a) (body b))
    {b : β} (hb : I b) : MG L K Q (M.loop body b) := by
  have key : ∀ n b, I b → MG L K Q (M.loopN body n b) := by
    intro n
    induction n with
    | zero => intro b _ s a t es _ h; cases h
    | succ n ih =>
      intro b hb s a t es hs hr hl
      unfold M.loopN at hr
      rcases h1 : body b s with e | ⟨r, u, es1⟩ <;> rw [h1] at hr
      · cases hr
      · cases r with
        | inr x => cases hr; exact h _ hb _ _ _ _ hs h1 hl
        | inl x =>
          simp only at hr
          rcases h2 : M.loopN body n x u with e | ⟨b', u', es2⟩ <;> rw [h2] at hr
          · cases hr
          · cases hr
            have h3 := h _ hb _ _ _ _ hs h1 fun e he => hl e (List.mem_append_left _ he)
            exact ih _ h3.2 _ _ _ _ h3.1 h2 fun e he => hl e (List.mem_append_right _ he)
  intro s a t es hs hr hl
  exact key _ _ hb _ _ _ _ hs hr hl

theorem skipM_p {k : Tok} (hk : TokIn K k) (hne : k.kind ≠ .EndOfFile) : MG L K (fun _ => True) (M.lift k.skip) := by
  intro s a t es _ hr _
  cases hr
  exact ⟨⟨by simpa using hne, hk.1⟩, trivial⟩

/-- Looking at what is ahead goes back to where it started. -/
theorem looks {m : M α} (h : Gives L K Q m) (hst : ∀ s a t es, m s = .ok (a, t, es) → t.eof = s.eof) : MG L K Q m := by
  intro s a t es hs hr hl
  obtain ⟨h1, h2⟩ := h s a t es ⟨fun h => absurd (h.symm.trans hs.1) (by decide), hs.2⟩ hr hl
  exact ⟨⟨(hst _ _ _ _ hr).trans hs.1, h1.2⟩, h2⟩

theorem around_eof {m : M α} {s a t es} (h : (do let mark ← M.mark; let a ← m; M.seek mark; Pure.pure a : M α) s = .ok (a, t, es)) :
    t.eof = s.eof := by
  obtain ⟨m0, u, es1, es2, h1, h2, -⟩ := bind_split h
  cases h1
  obtain ⟨x, u, es3, es4, -, h4, -⟩ := bind_split h2
  obtain ⟨y, u', es5, es6, h5, h6, -⟩ := bind_split h4
  cases h5
  cases h6
  rfl

theorem peekTop_p (C : CoverC E L K) {g : Bool} : MG L K (TokIn K) (peekToken E g) :=
  looks (peekToken_k C.toCover (.refl E)) fun _ _ _ _ h => around_eof h

theorem peekWith_p (C : CoverC E L K) {pol : Pol} {g : Bool} : MG L K (TokIn K) (peekTokenWith E pol g) :=
  looks (peekTokenWith_k C.toCover (.refl E)) fun _ _ _ _ h => around_eof h

/-- The token at the end of the text is followed by nothing. -/
theorem peekEnd_p (C : CoverC E L K) {g : Bool} : MG L K (fun k => TokIn K k ∧ (k.kind = .EndOfFile → k.after = [])) (peekToken E g) := by
  intro s k t es hs hr hl
  obtain ⟨h1, h2⟩ := peekTop_p C s k t es hs hr hl
  refine ⟨h1, h2, ?_⟩
  have hw : WF s := fun h => absurd (h.symm.trans hs.1) (by decide)
  have h3 := peek_out (E := E) (pol := .top) (g := g) (s := s) (s' := s) (.refl s) (.refl hw (C.col hs.2))
  have h4 := peekTokenWith_wp (cfg := E.cfg) (pol := .top) (g := g) hw
  unfold wp at h4
  unfold peekToken at hr
  rw [hr] at h3
  rcases h5 : CodeParser.peekTokenWith E.cfg .top g s with e | ⟨k', t'⟩ <;> rw [h5] at h3 h4
  · exact h3.elim
  · obtain ⟨rfl, -⟩ := h3
    exact fun h => (h4.eof h).1

theorem peekTagM_p (C : CoverC E L K) : MG L K (fun k => TokIn K k ∧ k.kind ≠ .EndOfFile) (peekTokenTag E) := by
  intro s k t es hs hr hl
  obtain ⟨h1, h2⟩ := looks (peekTokenTag_k C.toCover (.refl E)) (fun _ _ _ _ h => around_eof h) s k t es hs hr hl
  refine ⟨h1, h2, ?_⟩
  have hw : WF s := fun h => absurd (h.symm.trans hs.1) (by decide)
  have h3 := peekTag_out (E := E) (s := s) (s' := s) (.refl s) (.refl hw (C.col hs.2))
  have h4 := peekTokenTag_wp (cfg := E.cfg) hw hs.1
  unfold wp at h4
  rw [hr] at h3
  rcases h5 : CodeParser.peekTokenTag E.cfg s with e | ⟨k', t'⟩ <;> rw [h5] at h3 h4
  · exact h3.elim
  · obtain ⟨rfl, -⟩ := h3
    exact h4.notEof

theorem peekFileM_p (C : CoverC E L K) : MG L K (fun k => TokIn K k ∧ k.kind ≠ .EndOfFile) (peekTokenFile E) := by
  intro s k t es hs hr hl
  obtain ⟨h1, h2⟩ := looks (peekTokenFile_k C.toCover (.refl E)) (fun _ _ _ _ h => around_eof h) s k t es hs hr hl
  refine ⟨h1, h2, ?_⟩
  have hw : WF s := fun h => absurd (h.symm.trans hs.1) (by decide)
  have h3 := peekFile_out (E := E) (s := s) (s' := s) (.refl s) (.refl hw (C.col hs.2))
  have h4 := peekTokenFile_wp (cfg := E.cfg) hw hs.1
  unfold wp at h4
  rw [hr] at h3
  rcases h5 : CodeParser.peekTokenFile E.cfg s with e | ⟨k', t'⟩ <;> rw [h5] at h3 h4
  · exact h3.elim
  · obtain ⟨rfl, -⟩ := h3
    exact h4.notEof

theorem snoc_in {ks : List Tok} {k : Tok} (h : ∀ j ∈ ks, TokIn K j) (hk : TokIn K k) : ∀ j ∈ ks ++ [k], TokIn K j := by
  intro x hx
  rcases List.mem_append.mp hx with hx | hx
  · exact h x hx
  · rw [List.mem_singleton.mp hx]; exact hk

theorem eatM_p (C : CoverC E L K) {g : Bool} {p : TK → Bool} (hp : p .EndOfFile = false) : MG L K (ToksIn K) (eatM E g p) := by
  unfold eatM
  refine MG.loop (fun ts => ∀ j ∈ ts, TokIn K j) (fun ts hts => ?_) (fun _ h => by cases h)
  refine MG.bind (peekTop_p C) fun k hk => MG.ite (fun h => ?_) (fun _ => MG.pure ⟨hts, hk⟩)
  exact MG.bind (skipM_p hk fun h' => by rw [h', hp] at h; cases h) fun _ _ => MG.pure (snoc_in hts hk)

theorem eatFileM_p (C : CoverC E L K) : MG L K (fun p => ToksIn K p ∧ p.2.kind ≠ .EndOfFile) (eatFileM E) := by
  unfold eatFileM
  refine MG.loop (fun ts => ∀ j ∈ ts, TokIn K j) (fun ts hts => ?_) (fun _ h => by cases h)
  refine MG.bind (peekFileM_p C) fun k hk => MG.ite (fun h => ?_) (fun _ => MG.pure ⟨⟨hts, hk.1⟩, hk.2⟩)
  exact MG.bind (skipM_p hk.1 hk.2) fun _ _ => MG.pure (snoc_in hts hk.1)

theorem handleFirstLine_p (C : CoverC E L K) {first : FirstLine} : MG L K (fun _ => True) (handleFirstLine E first) := by
  have key : MG L K (fun _ => True) (handleFirstLine E .check) := by
    unfold handleFirstLine
    refine MG.bind (peekTop_p C) fun k hk => MG.ite (fun _ => MG.pure trivial) fun hne => ?_
    refine MG.bind (skipM_p hk fun h' => hne (by rw [h']; decide)) fun _ _ => ?_
    refine MG.bind (peekTop_p C) fun k hk => MG.ite (fun _ => MG.pure trivial) fun hne => ?_
    refine MG.bind (skipM_p hk fun h' => hne (by rw [h']; decide)) fun _ _ => MG.loop (fun _ => True) (fun _ _ => ?_) trivial
    refine MG.bind (peekTop_p C) fun k hk => MG.ite (fun _ => MG.pure trivial) fun h0 => MG.ite (fun _ => ?_) (fun _ => ?_)
    · exact MG.bind (skipM_p hk h0) fun _ _ => MG.pure trivial
    · exact MG.bind (skipM_p hk h0) fun _ _ => MG.pure trivial
  cases first with
  | notScript => exact MG.pure trivial
  | check => exact key
  | script => exact key

theorem skipP_p (C : CoverC E L K) {k : Tok} (hk : TokIn K k) (hne : k.kind ≠ .EndOfFile) : PK L K (skipP k) := by
  have _ := C
  exact (skipM_p hk hne).lift

theorem reset_p (C : CoverC E L K) {k : Tok} (hk : TokIn K k) : PK L K (P.lift (M.lift k.reset)) := by
  have _ := C
  refine MG.lift ?_
  intro s a t es hs hr _
  cases hr
  exact ⟨⟨hs.1, hk.2⟩, trivial⟩

theorem peekP_p (C : CoverC E L K) : PG L K (TokIn K) (peekP ⟨E, rc⟩) :=
  fun s a t es hs hr hl => (peekTop_p C).lift s a t es hs hr hl

theorem peekEndP_p (C : CoverC E L K) : PG L K (fun k => TokIn K k ∧ (k.kind = .EndOfFile → k.after = [])) (peekP ⟨E, rc⟩) :=
  fun s a t es hs hr hl => (peekEnd_p C).lift s a t es hs hr hl

theorem peekWithP_p (C : CoverC E L K) {pol : Pol} : PG L K (TokIn K) (peekWithP ⟨E, rc⟩ pol) :=
  fun s a t es hs hr hl => (peekWith_p C).lift s a t es hs hr hl

theorem peekTag_p (C : CoverC E L K) : PG L K (fun k => TokIn K k ∧ k.kind ≠ .EndOfFile) (P.lift (peekTokenTag E)) := (peekTagM_p C).lift

theorem currentToken_p (C : CoverC E L K) : PG L K (ToksIn K) (currentToken ⟨E, rc⟩) :=
  fun s a t es hs hr hl => (eatM_p C (by decide)).lift s a t es hs hr hl

theorem currentTokenNTN_p (C : CoverC E L K) : PG L K (ToksIn K) (currentTokenNTN ⟨E, rc⟩) :=
  fun s a t es hs hr hl => (eatM_p C (by decide)).lift s a t es hs hr hl

theorem pushNext_p (C : CoverC E L K) {k : Tok} (hk : TokIn K k) (hne : k.kind ≠ .EndOfFile) : PK L K (pushNext k) :=
  PK.then (by stillK) (skipP_p C hk hne)

theorem triviaReset_p (C : CoverC E L K) {ts : List Tok} (h : ∀ k ∈ ts, TokIn K k) : PK L K (triviaReset ts) := by
  cases ts with
  | nil => exact PG.pure trivial
  | cons k ks => exact reset_p C (h k (List.mem_cons_self ..))

theorem eatTrivia_p (C : CoverC E L K) : PG L K (TokIn K) (eatTrivia ⟨E, rc⟩) := by
  unfold eatTrivia
  refine PG.bind (currentToken_p C) ?_
  rintro ⟨ts, k⟩ ⟨h1, h2⟩
  exact PK.then (by stillK) (PG.pure h2)

theorem eatTriviaNTN_p (C : CoverC E L K) : PG L K (TokIn K) (eatTriviaNTN ⟨E, rc⟩) := by
  unfold eatTriviaNTN
  refine PG.bind (currentTokenNTN_p C) ?_
  rintro ⟨ts, k⟩ ⟨h1, h2⟩
  exact PK.then (by stillK) (PG.pure h2)

theorem eatTriviaFile_p (C : CoverC E L K) : PG L K (fun k => TokIn K k ∧ k.kind ≠ .EndOfFile) (eatTriviaFile ⟨E, rc⟩) := by
  unfold eatTriviaFile
  refine PG.bind (eatFileM_p C).lift ?_
  rintro ⟨ts, k⟩ ⟨⟨h1, h2⟩, h3⟩
  exact PK.then (by stillK) (PG.pure ⟨h2, h3⟩)

theorem commitNext_p (C : CoverC E L K) {ts : List Tok} {k : Tok} (hk : TokIn K k) (hne : k.kind ≠ .EndOfFile) : PK L K (commitNext ts k) :=
  PK.then (by stillK) (pushNext_p C hk hne)

theorem processImplicitTimes_p (C : CoverC E L K) {k : Tok} (hk : TokIn K k) : PG L K (TokIn K) (processImplicitTimes k) := by
  have _ := C
  intro s j t es hs hr hl
  refine ⟨(Silent.pk (L := L) processImplicitTimes_silent s j t es hs hr hl).1, ?_⟩
  have key : ∀ j t, CodeParser.processImplicitTimes k s = .ok (j, t) → j = k ∨ j = k.atStart .Fake_ImplicitTimes := by
    intro j t
    unfold CodeParser.processImplicitTimes
    split
    · intro h; cases h; exact .inr rfl
    · split
      · intro h; cases h; exact .inl rfl
      · intro h; cases h; exact .inr rfl
    · rcases CodeParser.topNodeIsSpan s with e | ⟨b, t⟩
      · intro h; cases h
      · cases b
        · intro h; cases h; exact .inl rfl
        · intro h; cases h; exact .inr rfl
    · intro h; cases h; exact .inl rfl
  unfold processImplicitTimes P.of at hr
  rcases h1 : CodeParser.processImplicitTimes k s with e | ⟨j', t'⟩ <;> rw [h1] at hr
  · cases hr
  · cases hr
    rcases key _ _ h1 with rfl | rfl
    · exact hk
    · exact ⟨hk.2, hk.2⟩

variable (C : CoverC E L K) (hrec : RecIn L K rec)
include C hrec

theorem reduceClimb_p {k : NodeKind} : PK L K (reduceClimb rec k) :=
  PK.then (by stillK) (hrec _ trivial)

theorem climbRest_p {ts : List Tok} {k : Tok} (hts : ∀ j ∈ ts, TokIn K j) (hk : TokIn K k) :
    PK L K (climbRest rec ts k) := by
  refine PG.bind (Silent.pk infixPrec_silent) ?_
  intro p _
  refine PG.get fun s => ?_
  refine PG.ite (fun _ => triviaReset_p C hts) (fun _ => ?_)
  exact PK.then (by stillK) (PK.then (by stillK) (hrec _ hk))

theorem climb_p : PK L K (climb ⟨E, rc⟩ rec) := by
  refine PG.bind (currentTokenNTN_p C) ?_
  rintro ⟨ts, k⟩ ⟨hts, hk⟩
  refine PG.bind (processImplicitTimes_p C hk) ?_
  intro j hj
  exact climbRest_p C hrec hts hj

theorem pushClimb_p {c : Cst} : PK L K (pushClimb rec c) :=
  PK.then (by stillK) (hrec _ trivial)

theorem operand_p : PK L K (operand ⟨E, rc⟩ rec) := by
  refine PG.bind (eatTrivia_p C) ?_
  intro k hk
  exact hrec _ hk

/-! ### Prefix parselets -/

theorem leafPrefix_p {k : Tok} (hk : TokIn K k) (hne : k.kind ≠ .EndOfFile) :
    PK L K (leafPrefix rec k) :=
  PK.then (pushNext_p C hk hne) (hrec _ trivial)

omit hrec in
theorem errorPrefix_p {k : Tok} (hk : TokIn K k) : PK L K (errorPrefix k) :=
  PG.ite (fun h => pushNext_p C hk (kind_ne h (by decide))) (fun _ => PG.panic)

omit hrec in
theorem closerPrefix_p {k : Tok} : PK L K (closerPrefix ⟨E, rc⟩ k) := by
  refine PG.ite (fun h => ?_) (fun _ => PG.panic)
  refine PG.get fun s => ?_
  exact PK.then (by stillK) (PG.bind (peekP_p C) fun _ _ => PG.pure trivial)

omit hrec in
theorem toplevelCloser_p {k : Tok} (hk : TokIn K k) : PK L K (toplevelCloser k) :=
  PG.ite (fun h => PK.then (by stillK) (skipP_p C hk (kind_ne h (by decide)))) (fun _ => PG.panic)

omit hrec in
theorem eofPrefix_p {k : Tok} : PK L K (eofPrefix k) := by
  refine PG.get fun s => ?_
  stillK

omit hrec in
theorem unsupportedPrefix_p {k : Tok} (hk : TokIn K k) (hne : k.kind ≠ .EndOfFile) :
    PK L K (unsupportedPrefix k) :=
  PK.then (by stillK) (skipP_p C hk hne)

theorem commaPrefix_p {k : Tok} : PK L K (commaPrefix rec k) := by
  refine PG.get fun s => ?_
  exact PK.then (by stillK) (hrec _ trivial)

theorem unhandledPrefix_p {k : Tok} (hk : TokIn K k) :
    PK L K (unhandledPrefix ⟨E, rc⟩ rec k) := by
  refine PG.ite (fun _ => PG.panic) (fun _ => ?_)
  refine PK.then (by stillK) (PG.bind (peekP_p C) fun _ _ => PG.bind (Silent.pk infixPrec_silent) ?_)
  intro p _
  refine PG.get fun s => ?_
  exact PG.ite (fun _ => PG.pure trivial) (fun _ => PK.then (by stillK) (hrec _ hk))

omit hrec in
theorem parseUnder_p {bop : CompoundOp} {k : Tok} (hk : TokIn K k) (hne : k.kind ≠ .EndOfFile) :
    PK L K (parseUnder ⟨E, rc⟩ bop k) := by
  refine PK.then (skipP_p C hk hne) (PG.bind (peekP_p C) ?_)
  intro j hj
  refine PG.ite (fun h => ?_) (fun _ => PG.pure trivial)
  refine PK.then (skipP_p C hj ?_) (PG.pure trivial)
  rcases h with h | h <;> exact kind_of h (by decide)

theorem underPrefix_p {bop : CompoundOp} {k : Tok} (hk : TokIn K k) (hne : k.kind ≠ .EndOfFile) :
    PK L K (underPrefix ⟨E, rc⟩ rec bop k) := by
  refine PG.bind (parseUnder_p C hk hne) ?_
  intro c _
  exact pushClimb_p C hrec

theorem symbolUnder_p {k j : Tok} {bop pbop : CompoundOp} (hj : TokIn K j) (hne : j.kind ≠ .EndOfFile) :
    PK L K (symbolUnder ⟨E, rc⟩ rec k bop pbop j) := by
  refine PG.bind (parseUnder_p C hj hne) ?_
  intro c _
  exact pushClimb_p C hrec

theorem symbolRest_p {k j : Tok} (hj : TokIn K j) :
    PK L K (symbolRest ⟨E, rc⟩ rec k j) := by
  unfold symbolRest
  generalize hkj : j.kind = K
  split
  · exact symbolUnder_p C hrec hj (kind_of hkj (by decide))
  · exact symbolUnder_p C hrec hj (kind_of hkj (by decide))
  · exact symbolUnder_p C hrec hj (kind_of hkj (by decide))
  · exact PK.then (skipP_p C hj (kind_of hkj (by decide))) (pushClimb_p C hrec)
  · exact pushClimb_p C hrec

theorem symbolPrefix_p {k : Tok} (hk : TokIn K k) (hne : k.kind ≠ .EndOfFile) :
    PK L K (symbolPrefix ⟨E, rc⟩ rec k) := by
  refine PK.then (skipP_p C hk hne) (PG.bind (peekP_p C) ?_)
  intro j hj
  exact symbolRest_p C hrec hj

theorem slotPrefix_p {pol : Pol} {op : CompoundOp} {str : Bool} {k : Tok} (hk : TokIn K k) (hne : k.kind ≠ .EndOfFile) :
    PK L K (slotPrefix ⟨E, rc⟩ rec pol op str k) := by
  refine PK.then (skipP_p C hk hne) (PG.bind (peekWithP_p C) ?_)
  intro j hj
  refine PG.ite (fun h => ?_) (fun _ => pushClimb_p C hrec)
  refine PK.then (skipP_p C hj ?_) (pushClimb_p C hrec)
  rcases h with h | ⟨-, h⟩ <;> exact kind_of h (by decide)

theorem opPrefix_p {p : Nat} {op : PrefixOp} {k : Tok} (hk : TokIn K k) (hne : k.kind ≠ .EndOfFile) :
    PK L K (opPrefix ⟨E, rc⟩ rec p op k) :=
  PK.then (pushNext_p C hk hne) (PK.then (by stillK) (PK.then (operand_p C hrec) (reduceClimb_p C hrec)))

theorem groupPrefix_p {opener : TK} {op : GroupOp} {k : Tok} (hk : TokIn K k) (hne : k.kind ≠ .EndOfFile) :
    PK L K (groupPrefix rec opener op k) := by
  unfold groupPrefix
  generalize h1 : groupOpenerToCloser opener = c1
  generalize groupOpenerToCloser k.kind = c2
  rcases c1 with _ | c1
  · exact PG.panic
  · rcases c2 with _ | c2
    · exact PG.panic
    · exact PK.then (by stillK) (PK.then (pushNext_p C hk hne) (PK.then (by stillK) (hrec _ ⟨_, h1⟩)))

omit C in
theorem semiSemiPrefix_p {k : Tok} (hk : TokIn K k) :
    PK L K (semiSemiPrefix rec k) :=
  PK.then (by stillK) (PK.then (by stillK) (hrec _ hk))

theorem integral1_p {op1 : PrefixBinaryOp} {op2 : PrefixOp} :
    PK L K (integral1 ⟨E, rc⟩ rec op1 op2) := by
  refine PG.bind (currentToken_p C) ?_
  rintro ⟨ts, k⟩ ⟨hts, hk⟩
  refine PG.ite (fun h => ?_) (fun h => ?_)
  · exact PK.then (by stillK) (PK.then (hrec _ hk) (reduceClimb_p C hrec))
  · exact PK.then (triviaReset_p C hts) (reduceClimb_p C hrec)

theorem integralPrefix_p {op1 : PrefixBinaryOp} {op2 : PrefixOp} {k : Tok} (hk : TokIn K k) (hne : k.kind ≠ .EndOfFile) :
    PK L K (integralPrefix ⟨E, rc⟩ rec op1 op2 k) := by
  refine PK.then (pushNext_p C hk hne) (PK.then (by stillK) (PG.bind (eatTrivia_p C) ?_))
  intro j hj
  refine PG.ite (fun h => ?_) (fun h => ?_)
  · exact PK.then (by stillK) (integral1_p C hrec)
  · exact PK.then (hrec _ hj) (integral1_p C hrec)

theorem lessLessPrefix_p {k : Tok} (hk : TokIn K k) (hne : k.kind ≠ .EndOfFile) :
    PK L K (lessLessPrefix ⟨E, rc⟩ rec k) := by
  refine PK.then (pushNext_p C hk hne) (PK.then (by stillK) (PG.bind (eatTriviaFile_p C) ?_))
  rintro j ⟨hj, hjn⟩
  exact PK.then (pushNext_p C hj hjn) (reduceClimb_p C hrec)

theorem parsePrefix_p {k : Tok} (hk : TokIn K k) :
    PK L K (parsePrefix ⟨E, rc⟩ rec k) := by
  unfold parsePrefix
  generalize hq : k.kind.prefixParselet = q
  have hne : q ≠ .eof → k.kind ≠ .EndOfFile := prefix_ne hq
  cases q with
  | leaf => exact leafPrefix_p C hrec hk (hne nofun)
  | error => exact errorPrefix_p C hk
  | closer => exact closerPrefix_p C
  | eof => exact eofPrefix_p C
  | unsupported => exact unsupportedPrefix_p C hk (hne nofun)
  | comma => exact commaPrefix_p C hrec
  | unhandled => exact unhandledPrefix_p C hrec hk
  | symbol => exact symbolPrefix_p C hrec hk (hne nofun)
  | underDot => exact leafPrefix_p C hrec hk (hne nofun)
  | hash => exact slotPrefix_p C hrec hk (hne nofun)
  | hashHash => exact slotPrefix_p C hrec hk (hne nofun)
  | percent => exact slotPrefix_p C hrec hk (hne nofun)
  | semiSemi => exact semiSemiPrefix_p hrec hk
  | lessLess => exact lessLessPrefix_p C hrec hk (hne nofun)
  | op p op => exact opPrefix_p C hrec hk (hne nofun)
  | group opener op => exact groupPrefix_p C hrec hk (hne nofun)
  | under bop _ => exact underPrefix_p C hrec hk (hne nofun)
  | integral op1 op2 => exact integralPrefix_p C hrec hk (hne nofun)

/-! ### Infix parselets -/

theorem binaryInfix_p {op : BinaryOp} {k : Tok} (hk : TokIn K k) (hne : k.kind ≠ .EndOfFile) :
    PK L K (binaryInfix ⟨E, rc⟩ rec op k) :=
  PK.then (pushNext_p C hk hne) (PK.then (operand_p C hrec) (reduceClimb_p C hrec))

theorem loopInfix_p {j : Job} {k : Tok} (hk : TokIn K k) (hne : k.kind ≠ .EndOfFile) (hj : JobIn K j) :
    PK L K (loopInfix ⟨E, rc⟩ rec j k) :=
  PK.then (pushNext_p C hk hne) (PK.then (operand_p C hrec) (hrec _ hj))

theorem postfixInfix_p {op : PostfixOp} {k : Tok} (hk : TokIn K k) (hne : k.kind ≠ .EndOfFile) :
    PK L K (postfixInfix rec op k) :=
  PK.then (pushNext_p C hk hne) (reduceClimb_p C hrec)

theorem callInfix_p {opener : TK} {op : GroupOp} {k : Tok} (hk : TokIn K k) (hne : k.kind ≠ .EndOfFile) :
    PK L K (callInfix rec opener op k) :=
  PK.then (by stillK) (PK.then (groupPrefix_p C hrec hk hne) (PK.then (by stillK) (hrec _ trivial)))

theorem tildeRest_p : PK L K (tildeRest ⟨E, rc⟩ rec) := by
  refine PG.bind (currentToken_p C) ?_
  rintro ⟨ts, k⟩ ⟨hts, hk⟩
  refine PG.ite (fun h => ?_) (fun h => ?_)
  · exact PK.then (commitNext_p C hk (kind_of h (by decide))) (PK.then (operand_p C hrec) (reduceClimb_p C hrec))
  · exact PK.then (triviaReset_p C hts) (reduceClimb_p C hrec)

theorem tildeInfix_p {k : Tok} (hk : TokIn K k) (hne : k.kind ≠ .EndOfFile) :
    PK L K (tildeInfix ⟨E, rc⟩ rec k) :=
  PK.then (pushNext_p C hk hne) (PK.then (operand_p C hrec) (tildeRest_p C hrec))

theorem colonRest_p {l : ColonLHS} {k : Tok} (hk : TokIn K k) :
    PK L K (colonRest rec l k) := by
  cases l <;> exact PK.then (by stillK) (PK.then (hrec _ hk) (reduceClimb_p C hrec))

theorem colonInfix_p {k : Tok} (hk : TokIn K k) (hne : k.kind ≠ .EndOfFile) :
    PK L K (colonInfix ⟨E, rc⟩ rec k) := by
  refine PG.bind (Silent.pk checkColonLhs_silent) ?_
  intro l _
  refine PK.then (pushNext_p C hk hne) (PG.bind (eatTrivia_p C) ?_)
  intro j hj
  exact colonRest_p C hrec hj

theorem equalRest_p {k1 k2 : NodeKind} : PK L K (equalRest ⟨E, rc⟩ rec k1 k2) := by
  refine PG.bind (eatTrivia_p C) ?_
  intro j hj
  refine PG.ite (fun h => ?_) (fun h => ?_)
  · exact PK.then (pushNext_p C hj (kind_of h (by decide))) (reduceClimb_p C hrec)
  · exact PK.then (hrec _ hj) (reduceClimb_p C hrec)

theorem equalInfix_p {k : Tok} (hk : TokIn K k) (hne : k.kind ≠ .EndOfFile) :
    PK L K (equalInfix ⟨E, rc⟩ rec k) :=
  PK.then (pushNext_p C hk hne) (equalRest_p C hrec)

theorem slashColonRest_p : PK L K (slashColonRest ⟨E, rc⟩ rec) := by
  refine PG.bind (currentToken_p C) ?_
  rintro ⟨ts, k⟩ ⟨hts, hk⟩
  refine PG.ite (fun h => ?_) (fun h => PG.ite (fun h => ?_) (fun h => ?_))
  · exact PK.then (by stillK) (PK.then (commitNext_p C hk (kind_of h (by decide))) (equalRest_p C hrec))
  · exact PK.then (by stillK) (PK.then (commitNext_p C hk (kind_of h (by decide))) (PK.then (operand_p C hrec) (reduceClimb_p C hrec)))
  · exact PK.then (triviaReset_p C hts) (reduceClimb_p C hrec)

theorem slashColonInfix_p {k : Tok} (hk : TokIn K k) (hne : k.kind ≠ .EndOfFile) :
    PK L K (slashColonInfix ⟨E, rc⟩ rec k) :=
  PK.then (pushNext_p C hk hne) (PK.then (operand_p C hrec) (slashColonRest_p C hrec))

theorem commaOperand_p : PK L K (commaOperand ⟨E, rc⟩ rec) := by
  refine PG.bind (eatTrivia_p C) ?_
  intro j hj
  exact PG.ite (fun h => by stillK) (fun h => hrec _ hj)

theorem commaInfix_p {k : Tok} (hk : TokIn K k) (hne : k.kind ≠ .EndOfFile) :
    PK L K (commaInfix ⟨E, rc⟩ rec k) :=
  PK.then (pushNext_p C hk hne) (PK.then (commaOperand_p C hrec) (hrec _ trivial))

theorem semiOperand_p : PK L K (semiOperand ⟨E, rc⟩ rec) := by
  refine PG.bind (eatTriviaNTN_p C) ?_
  intro j hj
  refine PG.ite (fun h => ?_) (fun h => PG.ite (fun h => ?_) (fun h => ?_))
  · exact PK.then (by stillK) (hrec _ trivial)
  · exact PK.then (hrec _ hj) (hrec _ trivial)
  · exact PK.then (by stillK) (reduceClimb_p C hrec)

theorem semiInfix_p {k : Tok} (hk : TokIn K k) (hne : k.kind ≠ .EndOfFile) :
    PK L K (semiInfix ⟨E, rc⟩ rec k) :=
  PK.then (pushNext_p C hk hne) (semiOperand_p C hrec)

theorem colonColonTag_p : PK L K (colonColonTag ⟨E, rc⟩ rec) := by
  refine PG.bind (peekTag_p C) ?_
  rintro j ⟨hj, hjn⟩
  exact PK.then (pushNext_p C hj hjn) (hrec _ trivial)

theorem colonColonInfix_p {k : Tok} (hk : TokIn K k) (hne : k.kind ≠ .EndOfFile) :
    PK L K (colonColonInfix ⟨E, rc⟩ rec k) :=
  PK.then (pushNext_p C hk hne) (colonColonTag_p C hrec)

theorem putInfix_p {op : BinaryOp} {k : Tok} (hk : TokIn K k) (hne : k.kind ≠ .EndOfFile) :
    PK L K (putInfix ⟨E, rc⟩ rec op k) := by
  refine PK.then (pushNext_p C hk hne) (PG.bind (eatTriviaFile_p C) ?_)
  rintro j ⟨hj, hjn⟩
  exact PK.then (pushNext_p C hj hjn) (reduceClimb_p C hrec)

theorem span3_p {ts : List Tok} {k : Tok} (hts : ∀ j ∈ ts, TokIn K j) (hk : TokIn K k) (hne : k.kind ≠ .EndOfFile) :
    PK L K (span3 ⟨E, rc⟩ rec ts k) := by
  refine PK.then (skipP_p C hk hne) (PG.bind (currentTokenNTN_p C) ?_)
  rintro ⟨ts4, k4⟩ ⟨hts4, hk4⟩
  refine PG.ite (fun h => ?_) (fun h => ?_)
  · exact PK.then (triviaReset_p C hts4) (PK.then (reset_p C hk) (PK.then (triviaReset_p C hts) (reduceClimb_p C hrec)))
  · exact PK.then (by stillK) (PK.then (by stillK) (PK.then (by stillK) (PK.then (hrec _ hk4) (reduceClimb_p C hrec))))

theorem span2_p : PK L K (span2 ⟨E, rc⟩ rec) := by
  refine PG.bind (currentTokenNTN_p C) ?_
  rintro ⟨ts, k⟩ ⟨hts, hk⟩
  refine PG.ite (fun h => ?_) (fun h => ?_)
  · exact PK.then (triviaReset_p C hts) (reduceClimb_p C hrec)
  · refine span3_p C hrec hts hk ?_
    intro hh
    apply h
    rw [hh]
    decide

theorem spanImplicit_p {k : Tok} (hk : TokIn K k) (hne : k.kind ≠ .EndOfFile) :
    PK L K (spanImplicit ⟨E, rc⟩ rec k) := by
  refine PK.then (skipP_p C hk hne) (PG.bind (currentTokenNTN_p C) ?_)
  rintro ⟨ts4, k4⟩ ⟨hts4, hk4⟩
  refine PG.ite (fun h => ?_) (fun h => ?_)
  · exact PK.then (triviaReset_p C hts4) (PK.then (reset_p C hk) (reduceClimb_p C hrec))
  · exact PK.then (by stillK) (PK.then (by stillK) (PK.then (hrec _ hk4) (reduceClimb_p C hrec)))

theorem semiSemiInfix_p {k : Tok} (hk : TokIn K k) (hne : k.kind ≠ .EndOfFile) :
    PK L K (semiSemiInfix ⟨E, rc⟩ rec k) := by
  refine PK.then (pushNext_p C hk hne) (PG.bind (eatTriviaNTN_p C) ?_)
  intro j hj
  refine PG.ite (fun h => ?_) (fun h => PG.ite (fun h => ?_) (fun h => ?_))
  · exact PK.then (by stillK) (reduceClimb_p C hrec)
  · exact PK.then (hrec _ hj) (span2_p C hrec)
  · exact PK.then (by stillK) (spanImplicit_p C hrec hj (kind_of (Classical.not_not.mp h) (by decide)))

theorem parseInfix_p {k : Tok} (hk : TokIn K k) :
    PK L K (parseInfix ⟨E, rc⟩ rec k) := by
  unfold parseInfix
  have hv := infix_valid k.kind
  generalize hq : k.kind.infixParselet = q at hv
  have hne : q ≠ .assertFalse → k.kind ≠ .EndOfFile := infix_ne hq
  cases q with
  | assertFalse => exact PG.panic
  | toplevelNewline => exact PG.panic
  | implicitTimes => exact PG.panic
  | differentialD => exact PG.panic
  | times => exact loopInfix_p C hrec hk (hne nofun) trivial
  | semi => exact semiInfix_p C hrec hk (hne nofun)
  | comma => exact commaInfix_p C hrec hk (hne nofun)
  | semiSemi => exact semiSemiInfix_p C hrec hk (hne nofun)
  | tilde => exact tildeInfix_p C hrec hk (hne nofun)
  | colon => exact colonInfix_p C hrec hk (hne nofun)
  | slashColon => exact slashColonInfix_p C hrec hk (hne nofun)
  | equal => exact equalInfix_p C hrec hk (hne nofun)
  | colonEqual => exact binaryInfix_p C hrec hk (hne nofun)
  | colonColon => exact colonColonInfix_p C hrec hk (hne nofun)
  | greaterGreater => exact putInfix_p C hrec hk (hne nofun)
  | greaterGreaterGreater => exact putInfix_p C hrec hk (hne nofun)
  | binary _ op => exact binaryInfix_p C hrec hk (hne nofun)
  | «infix» _ op => exact loopInfix_p C hrec hk (hne nofun) (of_decide_eq_true (p := op ≠ .CodeParser_InternalInvalid) hv)
  | «postfix» _ op => exact postfixInfix_p C hrec hk (hne nofun)
  | call opener op => exact callInfix_p C hrec hk (hne nofun)

/-! ### Loops -/

theorem infixLoop_p {op : InfixOp} (hop : op ≠ .CodeParser_InternalInvalid) :
    PK L K (infixLoop ⟨E, rc⟩ rec op) := by
  refine PG.bind (currentToken_p C) ?_
  rintro ⟨ts, k⟩ ⟨hts, hk⟩
  refine PG.ite (fun h => ?_) (fun h => ?_)
  · exact PK.then (triviaReset_p C hts) (reduceClimb_p C hrec)
  · refine PK.then (commitNext_p C hk ?_) (PK.then (operand_p C hrec) (hrec _ hop))
    intro hh
    apply h
    rw [hh, eof_op]
    intro h1
    injection h1 with h1
    exact hop h1.symm

omit hrec in
theorem timesToken_p :
    PG L K (ToksIn K) (timesToken ⟨E, rc⟩) := by
  refine PG.bind (currentToken_p C) ?_
  rintro ⟨ts, k⟩ ⟨hts, hk⟩
  refine PG.bind (processImplicitTimes_p C hk) ?_
  intro j hj
  refine PG.ite (fun h => ?_) (fun h => PG.pure ⟨hts, hj⟩)
  refine PK.then (triviaReset_p C hts) (PG.bind (currentTokenNTN_p C) ?_)
  rintro ⟨ts2, k2⟩ ⟨hts2, hk2⟩
  refine PG.bind (processImplicitTimes_p C hk2) ?_
  intro j hj
  exact PG.pure ⟨hts2, hj⟩

theorem timesLoop_p : PK L K (timesLoop ⟨E, rc⟩ rec) := by
  refine PG.bind (timesToken_p C) ?_
  rintro ⟨ts, k⟩ ⟨hts, hk⟩
  refine PG.ite (fun h => ?_) (fun h => ?_)
  · exact PK.then (triviaReset_p C hts) (reduceClimb_p C hrec)
  · refine PK.then (commitNext_p C hk ?_) (PK.then (operand_p C hrec) (hrec _ trivial))
    intro hh
    apply h
    rw [hh, eof_op]
    decide

theorem commaLoop_p : PK L K (commaLoop ⟨E, rc⟩ rec) := by
  refine PG.bind (currentToken_p C) ?_
  rintro ⟨ts, k⟩ ⟨hts, hk⟩
  refine PG.ite (fun h => ?_) (fun h => ?_)
  · exact PK.then (commitNext_p C hk (kind_ne h (by decide))) (PK.then (commaOperand_p C hrec) (hrec _ trivial))
  · exact PK.then (triviaReset_p C hts) (by stillK)

theorem semiLoop_p : PK L K (semiLoop ⟨E, rc⟩ rec) := by
  refine PG.bind (currentToken_p C) ?_
  rintro ⟨ts, k⟩ ⟨hts, hk⟩
  refine PG.ite (fun h => ?_) (fun h => ?_)
  · exact PK.then (commitNext_p C hk (kind_of h (by decide))) (semiOperand_p C hrec)
  · exact PK.then (triviaReset_p C hts) (reduceClimb_p C hrec)

theorem colonColonLoop_p : PK L K (colonColonLoop ⟨E, rc⟩ rec) := by
  refine PG.bind (currentToken_p C) ?_
  rintro ⟨ts, k⟩ ⟨hts, hk⟩
  refine PG.ite (fun h => ?_) (fun h => ?_)
  · exact PK.then (commitNext_p C hk (kind_of h (by decide))) (colonColonTag_p C hrec)
  · exact PK.then (triviaReset_p C hts) (reduceClimb_p C hrec)

theorem groupLoop_p {c : Closer} {op : GroupOp} (hc : ∃ k, groupOpenerToCloser k = some c) :
    PK L K (groupLoop ⟨E, rc⟩ rec c op) := by
  refine PG.bind (currentToken_p C) ?_
  rintro ⟨ts, k⟩ ⟨hts, hk⟩
  refine PG.ite (fun h => ?_) (fun h => PG.ite (fun h => ?_) (fun h => ?_))
  · obtain ⟨k0, hc⟩ := hc
    rw [← h] at hc
    exact PK.then (commitNext_p C hk (closer_kinds _ (opens_facts _ _ hc)).1) (PK.then (by stillK) (hrec _ trivial))
  · refine PG.get fun s => ?_
    refine PG.ite (fun h => ?_) (fun h => ?_)
    · exact PK.then (triviaReset_p C hts) (by stillK)
    · exact PK.then (by stillK) (PK.then (toplevelCloser_p C hk) (hrec _ hc))
  · refine PK.then (by stillK) (PG.ite (fun h => Silent.pk reduceUnterminated_silent) (fun h => ?_))
    exact PK.then (hrec _ hk) (hrec _ hc)

theorem step_p {j : Job} (hj : JobIn K j) : PK L K (step ⟨E, rc⟩ rec j) := by
  cases j with
  | «prefix» t => exact parsePrefix_p C hrec hj
  | climb => exact climb_p C hrec
  | «infix» t => exact parseInfix_p C hrec hj
  | groupLoop c op => exact groupLoop_p C hrec hj
  | infixLoop op => exact infixLoop_p C hrec hj
  | timesLoop => exact timesLoop_p C hrec
  | commaLoop => exact commaLoop_p C hrec
  | semiLoop => exact semiLoop_p C hrec
  | colonColonLoop => exact colonColonLoop_p C hrec

omit hrec in
theorem run_p (n : Nat) : RecIn L K (run ⟨E, rc⟩ n) := by
  induction n with
  | zero => intro j _ s a t es _ h; cases h
  | succ n ih => intro j hj; exact step_p C ih hj

omit hrec in
theorem parseItem_p {k : Tok} (hk : TokIn K k) (hne : k.kind ≠ .EndOfFile) :
    PK L K (parseItem ⟨E, rc⟩ k) := by
  have fin : PK L K (do let c ← popNode; assertQuiescent; pure c : P Cst) := by
    refine PG.bind (Silent.pk popNode_silent) ?_
    intro c _
    exact PK.then (by stillK) (PG.pure trivial)
  refine PG.ite (fun h => ?_) (fun h => PG.ite (fun h => ?_) (fun h => ?_))
  · exact PK.then (skipP_p C hk hne) (PG.pure trivial)
  · exact PK.then (toplevelCloser_p C hk) fin
  · refine PG.get fun s => ?_
    exact PK.then (run_p C _ _ hk) fin

omit hrec in
theorem parseLoopN_p (n : Nat) : ∀ cs, PG L K (fun _ => ∃ l, K [] l) (parseLoopN ⟨E, rc⟩ n cs) := by
  induction n with
  | zero => intro cs s a t es _ h; cases h
  | succ n ih =>
    intro cs
    refine PG.bind (peekEndP_p C) ?_
    rintro k ⟨hk, he⟩
    refine PG.ite (fun h => PG.pure ⟨_, he h ▸ hk.1⟩) (fun h => ?_)
    refine PG.bind (parseItem_p C hk h) ?_
    intro c _
    exact ih _

omit hrec in
theorem parseLoop_p : PG L K (fun _ => ∃ l, K [] l) (parseLoop ⟨E, rc⟩) := by
  intro s a t es hs h hl
  exact parseLoopN_p C _ _ s a t es hs h hl

omit hrec in
/-- The parser comes to the end of the text. -/
theorem doParse_p {conv : Conv} {first : FirstLine} {bs : List UInt8} {cs : List Cst} {t : PS} {es : List Ev}
    (h : doParse ⟨E, rc⟩ conv first bs = .ok (cs, t, es)) (hs : K bs conv.start) (hl : ∀ e ∈ es, L e) : ∃ l, K [] l :=
  ((PG.bind (handleFirstLine_p C).lift fun _ _ => parseLoop_p C) _ _ _ _ ⟨rfl, hs⟩ h hl).2

omit hrec in
theorem tokenLoop_p : MG L K (fun _ => ∃ l, K [] l) (tokenLoop E) := by
  unfold tokenLoop
  refine MG.loop (fun _ => True) (fun _ _ => MG.bind (peekEnd_p C) ?_) trivial
  rintro k ⟨hk, he⟩
  refine MG.ite (fun h => MG.pure ⟨_, he h ▸ hk.1⟩) (fun h => ?_)
  exact MG.bind (skipM_p hk h) fun _ _ => MG.pure trivial

omit hrec in
/-- The tokenizer comes to the end of the text. -/
theorem tokens_p {conv : Conv} {first : FirstLine} {bs : List UInt8} {ts : List Tok} {t : St} {es : List Ev}
    (h : tokens E conv first bs = .ok (ts, t, es)) (hs : K bs conv.start) (hl : ∀ e ∈ es, L e) : ∃ l, K [] l :=
  ((MG.bind (handleFirstLine_p C) fun _ _ => tokenLoop_p C) _ _ _ _ ⟨rfl, hs⟩ h hl).2

end
end CodeParser.Chk.Par.Cov
