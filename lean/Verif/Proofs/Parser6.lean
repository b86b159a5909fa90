import Verif.Proofs.Parser5
/-!
The parser: loops, and all recursive functions together (helper lemmas).
-/
namespace CodeParser
open Spec Cst

section
variable {U : Setup} {F : Fr} {C C' : List (Nat × Nat)} {G G' : List Closer} {X Y Z : List Cst} {s s' s1 s2 : PS}
  {k t o t0 : Tok} {ts us vs ws : List Tok} {n l x r : Cst} {p p' q top : Nat} {u v : St} {rec : Job → P Unit} {m : Nat}
  {op : InfixOp}

/-! ### Sequences of operands -/

theorem chain_snoc (h : Chain op p X x) : (∃ X0, X = X0 ++ [x]) ∧ Operand x := by
  cases h with
  | one h => exact ⟨⟨[], rfl⟩, h⟩
  | @more cs _ ts o us _ _ _ _ _ h _ _ => exact ⟨⟨cs ++ tt ts ++ .tok o :: tt us, by simp⟩, h⟩

/-- The first round of a loop. -/
theorem PreLoop.start (on : On U F ((p, F.S.length) :: C) G (l :: (tt ts ++ [.tok o]) ++ (tt us ++ [r])) [] s)
    (head : Head (topOf C) p (l :: (tt ts ++ [.tok o]))) (hl : Operand l) (hts : Tr ts) (ho : InfixOf o.kind op)
    (hot : o.kind.isTrivia = false) (hop : opPrec o.kind = some p) (hy : Yields l ts (leftPrec o r))
    (hus : Tr us) (hr : Operand r) (hh : Holds p r) :
    PreLoop U F C G op p (l :: (tt ts ++ [.tok o]) ++ (tt us ++ [r])) r s := by
  have e : l :: (tt ts ++ [.tok o]) ++ (tt us ++ [r]) = [l] ++ (tt ts ++ .tok o :: (tt us ++ [r])) := by simp
  refine ⟨on, ?_, ?_, head.append⟩
  · rw [e]; exact .more (.one hl) ho hts hus hr hy hh
  · rw [e]; exact ⟨l, _, o, rfl, opAfter_tt hts hot, hop⟩

/-- A further round of a loop. -/
theorem PreLoop.more (h : PreLoop U F C G op p X x s)
    (on : On U F ((p, F.S.length) :: C) G (X ++ (tt ts ++ [.tok o]) ++ (tt us ++ [r])) [] s')
    (hts : Tr ts) (ho : InfixOf o.kind op) (hy : Yields x ts (leftPrec o r))
    (hus : Tr us) (hr : Operand r) (hh : Holds p r) :
    PreLoop U F C G op p (X ++ (tt ts ++ [.tok o]) ++ (tt us ++ [r])) r s' := by
  have e : X ++ (tt ts ++ [.tok o]) ++ (tt us ++ [r]) = X ++ (tt ts ++ .tok o :: (tt us ++ [r])) := by simp
  refine ⟨on, ?_, ?_, h.head.append.append⟩
  · rw [e]; exact .more h.chain ho hts hus hr hy hh
  · obtain ⟨l, rest, o', rfl, h1, h2⟩ := h.firstOp
    exact ⟨l, _, o', rfl, opAfter_append (opAfter_append h1), h2⟩

theorem PreLoop.ne (h : PreLoop U F C G op p X x s) : X ≠ [] := by
  obtain ⟨l, rest, o', rfl, -⟩ := h.firstOp; simp

theorem PreLoop.last (h : PreLoop U F C G op p X x s) : ∀ q, lastPrec (.infix op) X = some q → q = p := by
  obtain ⟨l, rest, o', rfl, h1, h2⟩ := h.firstOp
  intro q hq
  simp only [lastPrec, h1, Option.bind_some, h2] at hq
  split at hq
  · cases hq
  · exact (Option.some.inj hq).symm

theorem PreLoop.stop (h : PreLoop U F C G op p X x s) (hs : Stop U p G u x) : StopT U G u (.node (.infix op) X) := by
  have hl := h.last
  obtain ⟨⟨X0, rfl⟩, -⟩ := chain_snoc h.chain
  exact stopT_node hl hs

theorem PreLoop.tails (h : PreLoop U F C G .MessageName p X x s) : StopT U G u (.node (.infix .MessageName) X) := by
  obtain ⟨l, rest, o', rfl, -⟩ := h.firstOp
  exact stopT_none rfl

/-- The end of a loop. -/
theorem PreLoop.finish (h : PreLoop U F C G op p X x s) (hrec : RecOK U rec m)
    (on : On U F ((p, F.S.length) :: C) G X [] s') (hs : StopT U G s'.st (.node (.infix op) X)) (hm : 8 * s'.len + 4 < m)
    (hl : s'.len ≤ s.len) :
    wpP U.E (reduceClimb rec (.infix op)) s' (fun _ s'' => ∃ n', Done U F C G n' s s'' ∧ first n' = firstL X) := by
  refine wpP_mono (reduceClimb_wp hrec on (.infix h.chain h.firstOp) h.ne h.head.holds hs hm) ?_
  rintro _ s'' ⟨n, hd, hf⟩
  exact ⟨n, hd.of_le hl, hf⟩

/-- The result of a loop. -/
abbrev LoopDone (U : Setup) (F : Fr) (C : List (Nat × Nat)) (G : List Closer) (X : List Cst) (s s' : PS) : Prop :=
  ∃ n, Done U F C G n s s' ∧ first n = firstL X

theorem loopDone {f : Option Tok} {P : P Unit} (hl : s1.len ≤ s.len) (hf : f = firstL X)
    (h : wpP U.E P s1 (fun _ s' => ∃ n', Done U F C G n' s1 s' ∧ first n' = f)) :
    wpP U.E P s1 (fun _ s' => LoopDone U F C G X s s') := by
  refine wpP_mono h ?_
  rintro _ s' ⟨n, hd, rfl⟩
  exact ⟨n, hd.of_le hl, hf⟩

theorem leftPrec_real (h : o.kind ≠ .Fake_ImplicitTimes) : leftPrec o r = opPrec o.kind := by
  unfold leftPrec; rw [if_neg h]

theorem infixOp_facts {k : TK} (h : k.infixOp = .infix op) (hi : op ≠ .CodeParser_InternalInvalid) : InfixOf k op ∧ infixReal k = true := by
  unfold TK.infixOp at h
  split at h
  · cases h
  · rename_i hk; cases h; exact ⟨.table hk, by unfold infixReal; rw [hk]⟩
  · cases h
  · rename_i hk; cases h; exact ⟨.times hk, by unfold infixReal; rw [hk]⟩
  · cases h; exact absurd rfl hi

theorem step_infixLoop (hrec : RecOK U rec (meas (.infixLoop op) s)) (hpre : Pre U F C G (.infixLoop op) X s) :
    wpP U.E (infixLoop U.env rec op) s (fun _ s' => LoopDone U F C G X s s') := by
  obtain ⟨p, x, h, hs, h1, h2⟩ := hpre
  have hm : 8 * s.len + 5 ≤ meas (.infixLoop op) s := by simp [meas, Job.rank]
  refine wpP_call (currentToken_wp h.on) ?_
  rintro ⟨ts, t⟩ s1 ⟨g1, ha⟩
  have hl1 : s1.len ≤ s.len := ha.len h.on.wf
  refine wpP_ite (fun _ => ?_) (fun hc => ?_)
  · refine wpP_call (triviaReset_wp h.on g1 ha) ?_
    rintro _ s2 ⟨g2, hs2⟩
    have hl2 := SameAt.len hs2
    exact h.finish hrec g2 (h.stop (hs.congr hs2)) (by omega) (by omega)
  · obtain ⟨hio, hre⟩ := infixOp_facts (by simpa using hc) h2
    have hk := (infix_kinds t.kind).2.2.2.2.1 hre
    refine wpP_call (commitNext_wp (ts := ts) g1 ha.ready.toHere hk.2 (ha.ready.at hk.2)) ?_
    rintro _ s2 ⟨g2, e2⟩
    have hl2 := len_skip_lt ha.ready hk.2 e2
    refine wpP_call (operand_wp' hrec g2 (by omega)) ?_
    rintro _ s3 ⟨us, t3, r, h3⟩
    have hl3 := h3.len
    have hp := h.more h3.on (ha.trivia fun _ h => h) hio (by rw [leftPrec_real ha.ready.notFake]; exact hs.T.yields' ha)
      h3.trivia h3.operand h3.holds
    refine loopDone (by omega) ?_ (hrec (.infixLoop op) F C G _ s3 ⟨p, r, hp, h3.stop, h1, h2⟩ (by simp only [meas, Job.rank]; omega))
    rw [firstL_append (by simp), firstL_append h.ne]

/-! ### Multiplication -/

theorem yields_fake (h : Yields l ts (opPrec t.kind)) (hr : t.kind.real = true) (hi : implicitKind t.kind = true)
    (h1 : t.kind = .SemiSemi → ∃ f, first r = some f ∧ f.kind = .Fake_ImplicitOne)
    (h2 : t.kind.isDifferential = true → ∃ f, first r = some f ∧ f.kind = t.kind) :
    Yields l ts (leftPrec (t.atStart .Fake_ImplicitTimes) r) := by
  have hf := implicit_facts _ hr (implicit_nontrivia _ hr hi) hi
  have e : leftPrec (t.atStart .Fake_ImplicitTimes) r = match first r with
    | some t =>
      match t.kind with
      | .LongName_DifferentialD | .LongName_CapitalDifferentialD => none
      | .Fake_ImplicitOne => some Prec.SEMISEMI
      | _ => some Prec.STAR
    | none => none := if_pos rfl
  rw [e]
  unfold implicitKind at hi
  split at hi
  · rename_i hk
    rcases h with h | h | h
    · exact Or.inl h
    · exact Or.inr (Or.inl h)
    · refine Or.inr (Or.inr fun p' hp' q hq => ?_)
      have hs := h Prec.STAR (by simp [opPrec, hk]) q hq
      have : p' ≤ Prec.STAR := by
        split at hp'
        · split at hp'
          · cases hp'
          · cases hp'
          · cases hp'; decide
          · cases hp'; exact Nat.le_refl _
        · cases hp'
      exact keeps_mono hs this
  · rename_i hk
    obtain ⟨f, hf1, hf2⟩ := h2 (hf.2.2 hk)
    have hd := hf.2.2 hk
    refine Or.inr (Or.inr fun p' hp' => ?_)
    rw [hf1] at hp'
    simp only [hf2] at hp'
    revert hp' hd
    cases t.kind <;> simp [TK.isDifferential]
  · rename_i hk
    obtain ⟨f, hf1, hf2⟩ := h1 (hf.2.1 hk)
    simp only [hf1, hf2]
    simpa [opPrec, hk] using h
  · cases hi

theorem Src.here (h : Src U G s.st t0 t) (he : s.st.eof = false) (hw : WF s.st) : Here U.env.cfg s.st t ∧ t.kind ≠ .EndOfFile ∧
    TokAt (gin G) t ∧ t.kind.isTrivia = false := by
  cases h with
  | real hr hi hf =>
    have hk := (infix_kinds t.kind).2.2.2.2.1 hi
    exact ⟨hr.toHere, hk.2, hr.at hk.2, hk.1⟩
  | fake hr ht hi => exact ⟨hr.toHere.atStart he TK.noConfusion hw, TK.noConfusion, ⟨TokOK.atStart rfl, NLTok.invented (k := .Fake_ImplicitTimes) rfl⟩, by show TK.isTrivia .Fake_ImplicitTimes = false; decide⟩

/-- An operand behind an operator that may be an implicit multiplication sign. -/
theorem times_operand_wp {c : Nat} (hrec : RecOK U rec m) (h : On U F C G X [] s) (hsrc : Src U G u t0 t) (hu : t.skipSt u = s.st)
    (he : u.eof = false) (hlu : u.rest.length = c)
    (hm : 8 * c ≤ m) (hm' : t.kind = .Fake_ImplicitTimes → 8 * c + 3 ≤ m) (hy : Yields l ts (opPrec t0.kind)) :
    wpP U.E (operand U.env rec) s (fun _ s' => ∃ us t2 r, OpdT U F C G X us r t2 s s' ∧ s'.len < c ∧ Yields l ts (leftPrec t r)) := by
  cases hsrc with
  | real hr hi hf =>
    have hk := (infix_kinds t.kind).2.2.2.2.1 hi
    have hl : s.len < c := by
      rw [← hlu]
      exact len_skip_lt (s := ⟨u, [], [], []⟩) hr hk.2 hu.symm
    refine wpP_mono (operand_wp' hrec h (by omega)) ?_
    rintro _ s' ⟨us, t2, r, h2⟩
    have := h2.len
    exact ⟨us, t2, r, h2, by omega, by rw [leftPrec_real hf]; exact hy⟩
  | fake hr ht hi =>
    have e : (t0.atStart .Fake_ImplicitTimes).skipSt u = u := by
      have h2 := hr.toHere
      show ({ rest := t0.text ++ t0.after, loc := t0.start, eof := TK.Fake_ImplicitTimes == TK.EndOfFile, flag := u.flag } : St) = u
      rw [h2.split, h2.start, show (TK.Fake_ImplicitTimes == TK.EndOfFile) = u.eof by rw [he]; rfl]
    rw [e] at hu
    subst hu
    have hne : t0.kind ≠ .EndOfFile := fun h => by rw [h] at hi; cases hi
    have hf := implicit_facts _ (hr.real hne) ht hi
    have hl : s.len = c := hlu
    have hm' := hm' rfl
    refine wpP_mono (operand_wp hrec h ?_) ?_
    · intro us t2 v ha
      obtain ⟨-, rfl⟩ := ha.of_ready hr ht
      simp only [Job.rank, hf.1, if_true]
      omega
    · rintro _ s' ⟨us, t2, r, h2⟩
      obtain ⟨v, ha⟩ := h2.ate
      obtain ⟨-, rfl⟩ := ha.of_ready hr ht
      have := h2.strict hf.1
      exact ⟨us, t2, r, h2, by omega, yields_fake hy (hr.real hne) hi h2.one h2.diff⟩

theorem loopInfix_wp {j : Job} (hrec : RecOK U rec m) (h : PreInfix U F C G p l ts t0 t s) (hio : InfixOf t.kind op)
    (hpr : opPrec t.kind = some p)
    (hj : ∀ s' r X, PreLoop U F C G op p X r s' → Stop U p G s'.st r → Pre U F C G j X s')
    (hje : ∀ s s' n X, Extra U C G X s s' n j → first n = firstL X) (hjr : j.rank = 5)
    (hm : 8 * s.len ≤ m) (hm' : t.kind = .Fake_ImplicitTimes → 8 * s.len + 3 ≤ m) :
    wpP U.E (loopInfix U.env rec j t) s (fun _ s' => InfixPost U F C G l s s') := by
  obtain ⟨h1, h2, h3, h4⟩ := h.src.here h.on.eof h.on.wf
  refine wpP_call (pushNext_wp h.on h1 h2 h3) ?_
  rintro _ s1 ⟨g1, e1⟩
  refine wpP_call (times_operand_wp hrec g1 h.src e1.symm h.on.eof rfl hm hm' h.yields) ?_
  rintro _ s2 ⟨us, t2, r, g2, hl2, hy⟩
  have hp := PreLoop.start g2.on (.mk h.trivia h4 h.prec h.holds (h.tight.imp And.left id)) h.operand h.trivia hio h4 hpr hy
    g2.trivia g2.operand g2.holds
  refine infixPost hl2 (wpP_mono (hrec j F C G _ s2 (hj _ _ _ hp g2.stop) (by unfold meas; rw [hjr]; change s2.len < s.len at hl2; omega)) ?_)
  rintro _ s3 ⟨n, hd, he⟩
  exact ⟨n, hd, hje _ _ _ _ he⟩

/-- What `timesToken` gives. -/
structure TimesTok (U : Setup) (F : Fr) (C : List (Nat × Nat)) (G : List Closer) (X : List Cst) (x : Cst)
    (ts : List Tok) (t0 t : Tok) (s s' : PS) : Prop where
  back : ∃ s1 pr, On U F C G X [] s1 ∧ SameAt s.st s1.st ∧ Ate U.env.cfg (gin G) pr s1.st ts t0 s'.st
  on : On U F C G X (tt ts) s'
  trivia : Tr ts
  yields : Yields x ts (opPrec t0.kind)
  proc : Proc t0 (topOf C) t
  ready : Ready U.env.cfg (gin G) s'.st t0
  len : s'.len ≤ s.len

theorem process_on {E : Err → Prop} {X0 : List Cst} (h : On U F C G (X0 ++ [x]) Z s) (hx : Operand x) :
    wpP E (processImplicitTimes t) s (fun t' s' => s' = s ∧ Proc t (topOf C) t') := by
  have hst : s.stack = x :: (X0.reverse ++ F.S) := by rw [h.stack]; simp
  have := process_wp (E := E) (t := t) hst (operand_notTrivia hx)
  rw [topPrec_eq h] at this
  exact this

theorem timesToken_wp {X0 : List Cst} (h : On U F C G (X0 ++ [x]) [] s) (hx : Operand x) (hs : StopT U G s.st x) :
    wpP U.E (timesToken U.env) s (fun r s' => ∃ t0, TimesTok U F C G (X0 ++ [x]) x r.1 t0 r.2 s s') := by
  refine wpP_call (currentToken_wp h) ?_
  rintro ⟨ts, t⟩ s1 ⟨h1, ha⟩
  refine wpP_call (process_on h1 hx) ?_
  rintro t' s1' ⟨rfl, hproc⟩
  refine wpP_ite (fun _ => ?_) (fun _ => ?_)
  · refine wpP_call (triviaReset_wp h h1 ha) ?_
    rintro _ s2 ⟨h2, hs2⟩
    refine wpP_call (currentTokenNTN_wp h2) ?_
    rintro ⟨ts2, t2⟩ s3 ⟨h3, hb⟩
    refine wpP_call (process_on h3 hx) ?_
    rintro t2' s3' ⟨rfl, hproc2⟩
    refine wpP_pure ⟨t2, ⟨s2, _, h2, hs2, hb⟩, h3, hb.trivia isNTN_trivia, (hs.congr hs2).yields (.of_ntn hb), hproc2, hb.ready, ?_⟩
    have : s3'.len ≤ s2.len := hb.len h2.wf
    rw [SameAt.len hs2] at this
    exact this
  · exact wpP_pure ⟨t, ⟨s, _, h, .refl _, ha⟩, h1, ha.trivia fun _ h => h, hs.yields' ha, hproc, ha.ready, ha.len h.wf⟩

theorem step_timesLoop (hrec : RecOK U rec (meas .timesLoop s)) (hpre : Pre U F C G .timesLoop X s) :
    wpP U.E (timesLoop U.env rec) s (fun _ s' => LoopDone U F C G X s s') := by
  obtain ⟨p, x, h, hs⟩ := hpre
  have hm : 8 * s.len + 5 ≤ meas .timesLoop s := by simp [meas, Job.rank]
  obtain ⟨⟨X0, hX⟩, hx⟩ := chain_snoc h.chain
  refine wpP_call (Q := fun r s' => ∃ t0, TimesTok U F ((p, F.S.length) :: C) G X x r.1 t0 r.2 s s') ?_ ?_
  · have := h.on
    rw [hX] at this ⊢
    exact timesToken_wp this hx hs.T
  rintro ⟨ts, t⟩ s1 ⟨t0, ht⟩
  have hl1 := ht.len
  refine wpP_ite (fun _ => ?_) (fun hc => ?_)
  · obtain ⟨s0, pr, g0, hs0, ha⟩ := ht.back
    refine wpP_call (triviaReset_wp g0 ht.on ha) ?_
    rintro _ s2 ⟨g2, hs2⟩
    have hss := hs0.trans hs2
    have hl2 := SameAt.len hss
    exact h.finish hrec g2 (h.stop (hs.congr hss)) (by omega) (by omega)
  · obtain ⟨hio, hre⟩ := infixOp_facts (by simpa using hc) (by decide)
    have hsrc : Src U G s1.st t0 t := by
      have hpr := ht.proc
      cases hpr with
      | same _ _ => exact .real ht.ready hre ht.ready.notFake
      | fake hi =>
        have hne : t0.kind ≠ .EndOfFile := fun h => by rw [h] at hi; cases hi
        exact .fake ht.ready (implicit_nontrivia _ (ht.ready.real hne) hi) hi
    obtain ⟨h1, h2, h3, h4⟩ := hsrc.here ht.on.eof ht.on.wf
    refine wpP_call (commitNext_wp (ts := ts) ht.on h1 h2 h3) ?_
    rintro _ s2 ⟨g2, e2⟩
    refine wpP_call (times_operand_wp hrec g2 hsrc e2.symm ht.on.eof rfl (by unfold PS.len at hl1 hm; omega) (fun _ => by unfold PS.len at hl1 hm; omega) ht.yields) ?_
    rintro _ s3 ⟨us, t3, r, h3, hl3, hy⟩
    have hp := h.more h3.on ht.trivia hio hy h3.trivia h3.operand h3.holds
    change s3.len < s1.len at hl3
    refine loopDone (by omega) ?_ (hrec .timesLoop F C G _ s3 ⟨p, r, hp, h3.stop⟩ (by simp only [meas, Job.rank]; omega))
    rw [firstL_append (by simp), firstL_append h.ne]

/-! ### Commas -/

/-- An operand behind `X`. -/
structure Opn (U : Setup) (F : Fr) (C : List (Nat × Nat)) (G : List Closer) (X : List Cst) (us : List Tok)
    (r : Cst) (s s' : PS) : Prop where
  trivia : Tr us
  on : On U F C G (X ++ (tt us ++ [r])) [] s'
  operand : Operand r
  holds : Holds (topOf C) r
  stop : Stop U (topOf C) G s'.st r
  len : s'.len ≤ s.len

theorem Opn.hollow {f : TK} (h : On U F C G (X ++ tt us) [] s1) (hl : s1.len ≤ s.len) (hus : Tr us)
    (hk : Here U.env.cfg s1.st k) (hf : operandKind f = true) (hi : invented f = true)
    (he : topOf C ≤ Prec.COMMA → f.isError = true) {E : Err → Prop} :
    wpP E (pushTok (k.atStart f)) s1 (fun _ s' => ∃ us r, Opn U F C G X us r s s') := by
  refine wpP_mono (pushHollow_wp f hi h hk) ?_
  rintro _ s2 ⟨h2, e2⟩
  rw [List.append_assoc] at h2
  have : s2.len = s1.len := by unfold PS.len; rw [e2]
  exact ⟨us, _, hus, h2, operandKind_iff.mpr hf, holds_tok, .of_ends (ends_hollow hi) fun h => flawed_tok (he h), by omega⟩

theorem Opn.prefix (hrec : RecOK U rec m) (h : On U F C G (X ++ tt us) [] s1) (hl : s1.len ≤ s.len) (hus : Tr us)
    (hr : Ready U.env.cfg (gin G) s1.st t) (ht : t.kind.isTrivia = false) (hm : 8 * s.len + 6 < m) :
    wpP U.E (rec (.prefix t)) s1 (fun _ s' => ∃ us r, Opn U F C G X us r s s') := by
  have := rank_le (.prefix t)
  refine wpP_mono (prefix_wp hrec h hr ht (by omega)) ?_
  rintro _ s2 ⟨r, h2⟩
  have := h2.len
  have g2 := h2.on
  rw [List.append_assoc] at g2
  exact ⟨us, r, hus, g2, h2.operand, h2.holds, h2.stop, by omega⟩

theorem commaOperand_wp (hrec : RecOK U rec m) (h : On U F C G X [] s) (hm : 8 * s.len + 6 < m) :
    wpP U.E (commaOperand U.env rec) s (fun _ s' => ∃ us r, Opn U F C G X us r s s') := by
  refine wpP_call (eatTrivia_wp h) ?_
  rintro t s1 ⟨us, h1, ha⟩
  have hl : s1.len ≤ s.len := ha.len h.wf
  have hus : Tr us := ha.trivia fun _ h => h
  refine wpP_ite (fun _ => ?_) (fun _ => ?_)
  · exact Opn.hollow h1 hl hus ha.ready.toHere (by decide) rfl (fun _ => by decide)
  · exact Opn.prefix hrec h1 hl hus ha.ready ha.stop hm

theorem commaInfix_wp (hrec : RecOK U rec m) (h : PreInfix U F C G p l ts t0 t s) (hf : t.kind ≠ .Fake_ImplicitTimes)
    (hk : t.kind.infixParselet = .comma) (hm : 8 * s.len ≤ m) :
    wpP U.E (commaInfix U.env rec t) s (fun _ s' => InfixPost U F C G l s s') := by
  have hop : opPrec t.kind = some Prec.COMMA := by simp [opPrec, hk]
  obtain rfl : p = Prec.COMMA := h.prec _ hop
  refine wpP_call (open_wp h hf) ?_
  rintro _ s1 ho
  have hl1 := ho.len
  refine wpP_call (commaOperand_wp hrec ho.on (by omega)) ?_
  rintro _ s2 ⟨us, r, h2⟩
  have hl2 := h2.len
  have hp := PreLoop.start h2.on ho.head ho.operand ho.trivia (.comma hk) ho.ntriv hop (by rw [leftPrec_real hf]; exact ho.yields)
    h2.trivia h2.operand h2.holds
  exact infixPost (by omega) (hrec .commaLoop F C G _ s2 ⟨r, hp, h2.stop⟩ (by simp only [meas, Job.rank]; omega))

theorem comma_trivia : ∀ k : TK, k.isComma = true → k.isTrivia = false := Props.forall_of_all (by decide +kernel)

theorem comma_infix : ∀ k : TK, k.infixParselet = .comma ↔ k.isComma = true := Props.forall_of_all (by decide +kernel)

theorem step_commaLoop (hrec : RecOK U rec (meas .commaLoop s)) (hpre : Pre U F C G .commaLoop X s) :
    wpP U.E (commaLoop U.env rec) s (fun _ s' => LoopDone U F C G X s s') := by
  obtain ⟨x, h, hs⟩ := hpre
  have hm : 8 * s.len + 5 ≤ meas .commaLoop s := by simp [meas, Job.rank]
  refine wpP_call (currentToken_wp h.on) ?_
  rintro ⟨ts, t⟩ s1 ⟨g1, ha⟩
  have hl1 : s1.len ≤ s.len := ha.len h.on.wf
  refine wpP_ite (fun hc => ?_) (fun hnc => ?_)
  · have hk := (infix_kinds t.kind).2.1 hc
    have hne : t.kind ≠ .EndOfFile := fun h => by rw [h] at hc; cases hc
    refine wpP_call (commitNext_wp (ts := ts) g1 ha.ready.toHere hne (ha.ready.at hne)) ?_
    rintro _ s2 ⟨g2, e2⟩
    have hl2 := len_skip_lt ha.ready hne e2
    refine wpP_call (commaOperand_wp hrec g2 (by omega)) ?_
    rintro _ s3 ⟨us, r, h3⟩
    have hl3 := h3.len
    have hp := h.more h3.on (ha.trivia fun _ h => h) (.comma hk) (by rw [leftPrec_real ha.ready.notFake]; exact hs.T.yields' ha)
      h3.trivia h3.operand h3.holds
    refine loopDone (by omega) ?_ (hrec .commaLoop F C G _ s3 ⟨r, hp, h3.stop⟩ (by simp only [meas, Job.rank]; omega))
    rw [firstL_append (by simp), firstL_append h.ne]
  · refine wpP_call (triviaReset_wp h.on g1 ha) ?_
    rintro _ s2 ⟨g2, hs2⟩
    have hl2 := SameAt.len hs2
    refine wpP_mono (reduceNode_wp g2 (.infix h.chain h.firstOp) h.ne) ?_
    rintro _ s3 ⟨g3, e3⟩
    have hl3 : s3.len = s2.len := by unfold PS.len; rw [e3]
    refine ⟨_, ⟨g3, trivial, h.head.holds, ⟨fun he => absurd (show false = true from he) (by decide), fun hc => ?_⟩, by omega⟩, first_node⟩
    rcases hs.halt (Nat.le_refl _) with hf | hf
    · obtain ⟨⟨X0, rfl⟩, -⟩ := chain_snoc h.chain
      exact Or.inl (CodeParser.Flawed.node hf (by simp))
    · refine Or.inr fun us t1 hah => ?_
      rw [e3] at hah
      have hah := hah.congr hs2.symm
      have h1 := hf us t1 hah
      by_cases hc1 : t1.kind.isComma = true
      · exfalso
        obtain ⟨a, b, hab, he⟩ := hah
        obtain ⟨-, h2, -⟩ := (he.trivia (comma_trivia _ hc1)).unique ha.eats hab
        exact hnc (show t.kind.isComma = true from (show t1 = t from h2) ▸ hc1)
      · unfold low at h1 ⊢
        split at h1
        · rfl
        · rfl
        · rename_i hi; exact absurd ((comma_infix _).mp hi) hc1
        · cases h1

/-! ### Compound expressions -/

theorem semiOperand_wp (hrec : RecOK U rec m) (h : On U F ((Prec.SEMI, F.S.length) :: C) G X [] s) (hX : X ≠ [])
    (hp : ∀ us r s', Opn U F ((Prec.SEMI, F.S.length) :: C) G X us r s s' → PreLoop U F C G .CompoundExpression Prec.SEMI (X ++ (tt us ++ [r])) r s')
    (hm : 8 * s.len + 6 < m) :
    wpP U.E (semiOperand U.env rec) s (fun _ s' => LoopDone U F C G X s s') := by
  refine wpP_call (eatTriviaNTN_wp h) ?_
  rintro t s1 ⟨us, h1, ha⟩
  have hl : s1.len ≤ s.len := ha.len h.wf
  have hus : Tr us := ha.trivia isNTN_trivia
  have hlow : topOf ((Prec.SEMI, F.S.length) :: C) ≤ Prec.COMMA → TK.isError .Fake_ImplicitNull = true :=
    fun h => absurd (show Prec.SEMI ≤ Prec.COMMA from h) (by decide)
  have loop : ∀ s2, (∃ us r, Opn U F ((Prec.SEMI, F.S.length) :: C) G X us r s s2) →
      wpP U.E (rec .semiLoop) s2 (fun _ s' => LoopDone U F C G X s s') := by
    rintro s2 ⟨us, r, h2⟩
    have hl2 := h2.len
    refine loopDone hl2 ?_ (hrec .semiLoop F C G _ s2 ⟨r, hp us r s2 h2, h2.stop⟩ (by simp only [meas, Job.rank]; omega))
    rw [firstL_append hX]
  refine wpP_ite (fun _ => ?_) (fun _ => wpP_ite (fun hb => ?_) (fun _ => ?_))
  · refine wpP_call (Opn.hollow h1 hl hus ha.ready.toHere (by decide) rfl hlow) ?_
    rintro _ s2 h2
    exact loop s2 h2
  · have hne : t.kind ≠ .EndOfFile := fun h => by rw [h, possible_eof] at hb; cases hb
    refine wpP_call (Opn.prefix hrec h1 hl hus ha.ready (possible_kinds _ (ha.ready.real hne) hb) hm) ?_
    rintro _ s2 h2
    exact loop s2 h2
  · refine wpP_call (Opn.hollow h1 hl hus ha.ready.toHere (by decide) rfl hlow) ?_
    rintro _ s2 ⟨us, r, h2⟩
    have hl2 := h2.len
    have hp2 := hp us r s2 h2
    refine loopDone hl2 ?_ (hp2.finish hrec h2.on (hp2.stop h2.stop) (by omega) (Nat.le_refl _))
    rw [firstL_append hX]

theorem semiInfix_wp (hrec : RecOK U rec m) (h : PreInfix U F C G p l ts t0 t s)
    (hk : t.kind = .Semi) (hm : 8 * s.len ≤ m) :
    wpP U.E (semiInfix U.env rec t) s (fun _ s' => InfixPost U F C G l s s') := by
  have hop : opPrec t.kind = some Prec.SEMI := by rw [hk]; rfl
  obtain rfl : p = Prec.SEMI := h.prec _ hop
  have hf : t.kind ≠ .Fake_ImplicitTimes := by rw [hk]; decide
  refine wpP_call (open_wp h hf) ?_
  rintro _ s1 ho
  have hl1 := ho.len
  refine infixPost (by omega) (semiOperand_wp hrec ho.on (by simp) ?_ (by omega))
  intro us r s' h2
  exact PreLoop.start h2.on ho.head ho.operand ho.trivia (.semi (by rw [hk]; rfl)) ho.ntriv hop
    (by rw [leftPrec_real hf]; exact ho.yields) h2.trivia h2.operand h2.holds

theorem step_semiLoop (hrec : RecOK U rec (meas .semiLoop s)) (hpre : Pre U F C G .semiLoop X s) :
    wpP U.E (semiLoop U.env rec) s (fun _ s' => LoopDone U F C G X s s') := by
  obtain ⟨x, h, hs⟩ := hpre
  have hm : 8 * s.len + 5 ≤ meas .semiLoop s := by simp [meas, Job.rank]
  refine wpP_call (currentToken_wp h.on) ?_
  rintro ⟨ts, t⟩ s1 ⟨g1, ha⟩
  have hl1 : s1.len ≤ s.len := ha.len h.on.wf
  refine wpP_ite (fun hc => ?_) (fun _ => ?_)
  · have hne : t.kind ≠ .EndOfFile := by rw [hc]; decide
    refine wpP_call (commitNext_wp (ts := ts) g1 ha.ready.toHere hne (ha.ready.at hne)) ?_
    rintro _ s2 ⟨g2, e2⟩
    have hl2 := len_skip_lt ha.ready hne e2
    refine loopDone (X := X) (f := firstL (X ++ (tt ts ++ [.tok t]))) (by omega) (firstL_append h.ne) (semiOperand_wp hrec g2 (by simp) ?_ (by omega))
    intro us r s' h3
    exact h.more h3.on (ha.trivia fun _ h => h) (.semi (by rw [hc]; rfl)) (by rw [leftPrec_real ha.ready.notFake]; exact hs.T.yields' ha)
      h3.trivia h3.operand h3.holds
  · refine wpP_call (triviaReset_wp h.on g1 ha) ?_
    rintro _ s2 ⟨g2, hs2⟩
    have hl2 := SameAt.len hs2
    exact h.finish hrec g2 (h.stop (hs.congr hs2)) (by omega) (by omega)

/-! ### Message names -/

theorem tag_newline {k : TK} (h : k.tagKind = true) : ¬ isNewline k := by
  rintro (rfl | rfl) <;> revert h <;> decide

theorem tag_facts : ∀ k : TK, k.tagKind = true → operandKind k = true :=
  Props.forall_of_all (by decide +kernel)

theorem colonColonTag_wp (hrec : RecOK U rec m) (h : On U F ((p, F.S.length) :: C) G X [] s) (hX : X ≠ [])
    (hp : ∀ t s', On U F ((p, F.S.length) :: C) G (X ++ (tt [] ++ [.tok t])) [] s' → Operand (.tok t) →
      PreLoop U F C G .MessageName p (X ++ (tt [] ++ [.tok t])) (.tok t) s')
    (hm : 8 * s.len + 6 < m) :
    wpP U.E (colonColonTag U.env rec) s (fun _ s' => LoopDone U F C G X s s') := by
  refine wpP_call (peekTagP_wp h) ?_
  rintro t s1 ⟨h1, hs1, hh, hk, hne, hol⟩
  have hl1 := SameAt.len hs1
  refine wpP_call (pushNext_wp h1 hh hne ⟨hol, .of_not (tag_newline hk)⟩) ?_
  rintro _ s2 ⟨h2, e2⟩
  have hl2 := len_skip hh e2
  refine loopDone (X := X) (f := firstL (X ++ (tt [] ++ [.tok t]))) (by omega) (firstL_append hX)
    (hrec .colonColonLoop F C G _ s2 ⟨p, .tok t, hp t s2 h2 (operandKind_iff.mpr (tag_facts _ hk)), rfl⟩ (by simp only [meas, Job.rank]; omega))

theorem colonColonInfix_wp (hrec : RecOK U rec m) (h : PreInfix U F C G p l ts t0 t s)
    (hk : t.kind = .ColonColon) (hm : 8 * s.len ≤ m) :
    wpP U.E (colonColonInfix U.env rec t) s (fun _ s' => InfixPost U F C G l s s') := by
  have hop : opPrec t.kind = some Prec.COLONCOLON := by rw [hk]; rfl
  obtain rfl : p = Prec.COLONCOLON := h.prec _ hop
  have hf : t.kind ≠ .Fake_ImplicitTimes := by rw [hk]; decide
  refine wpP_call (open_wp h hf) ?_
  rintro _ s1 ho
  have hl1 := ho.len
  refine infixPost (by omega) (colonColonTag_wp hrec ho.on (by simp) ?_ (by omega))
  intro t2 s' h2 hr
  exact PreLoop.start h2 ho.head ho.operand ho.trivia (.tag (by rw [hk]; rfl)) ho.ntriv hop
    (by rw [leftPrec_real hf]; exact ho.yields) (by simp [Tr]) hr holds_tok

theorem step_colonColonLoop (hrec : RecOK U rec (meas .colonColonLoop s)) (hpre : Pre U F C G .colonColonLoop X s) :
    wpP U.E (colonColonLoop U.env rec) s (fun _ s' => LoopDone U F C G X s s') := by
  obtain ⟨p, x, h, hs⟩ := hpre
  have hm : 8 * s.len + 5 ≤ meas .colonColonLoop s := by simp [meas, Job.rank]
  refine wpP_call (currentToken_wp h.on) ?_
  rintro ⟨ts, t⟩ s1 ⟨g1, ha⟩
  have hl1 : s1.len ≤ s.len := ha.len h.on.wf
  refine wpP_ite (fun hc => ?_) (fun _ => ?_)
  · have hne : t.kind ≠ .EndOfFile := by rw [hc]; decide
    refine wpP_call (commitNext_wp (ts := ts) g1 ha.ready.toHere hne (ha.ready.at hne)) ?_
    rintro _ s2 ⟨g2, e2⟩
    have hl2 := len_skip_lt ha.ready hne e2
    refine loopDone (X := X) (f := firstL (X ++ (tt ts ++ [.tok t]))) (by omega) (firstL_append h.ne) (colonColonTag_wp hrec g2 (by simp) ?_ (by omega))
    intro t3 s' h3 hr
    exact h.more h3 (ha.trivia fun _ h => h) (.tag (by rw [hc]; rfl))
      (by rw [leftPrec_real ha.ready.notFake]; exact (StopT.of_tails hs).yields' ha) (by simp [Tr]) hr holds_tok
  · refine wpP_call (triviaReset_wp h.on g1 ha) ?_
    rintro _ s2 ⟨g2, hs2⟩
    have hl2 := SameAt.len hs2
    exact h.finish hrec g2 h.tails (by omega) (by omega)

/-! ### Groups -/

theorem noCloser_tt {ks : List Tok} (h : Tr ks) : NoCloser (tt ks) := by
  intro t ht
  simp [tt] at ht
  exact trivia_kinds _ (h t ht)

theorem noCloser_append (h : NoCloser X) (h' : NoCloser Y) : NoCloser (X ++ Y) := by
  intro t ht
  rcases List.mem_append.mp ht with ht | ht
  · exact h t ht
  · exact h' t ht

theorem noCloser_one (h : ∀ t, n = .tok t → t.kind.isCloser = false) : NoCloser [n] := by
  intro t ht
  simp at ht
  exact h t ht.symm

theorem low_prefix : ∀ k : TK, k.real = true → low 0 k = true → k.isTrivia = false → k.isCloser = false →
    k.prefixParselet = .error ∨ k.prefixParselet = .unsupported := Props.forall_of_all (by decide +kernel)

theorem proper_append : proper (X ++ Y) = proper X ++ proper Y := List.filter_append ..

theorem proper_tt (h : Tr ts) : proper (tt ts) = [] := by
  unfold proper tt
  rw [List.filter_eq_nil_iff]
  intro c hc
  obtain ⟨t, ht, rfl⟩ := List.mem_map.mp hc
  simp [Cst.isTrivia, h t ht]

theorem step_groupLoop {c : Closer} {op : GroupOp} (hrec : RecOK U rec (meas (.groupLoop c op) s))
    (hpre : Pre U F C G (.groupLoop c op) X s) :
    wpP U.E (groupLoop U.env rec c op) s (fun _ s' => ∃ n, Done U F C G n s s' ∧ Extra U C G X s s' n (.groupLoop c op)) := by
  obtain ⟨o, mid, rfl, h, hop, hcl, hnc, hsl⟩ := hpre
  have hm : 8 * s.len + 6 ≤ meas (.groupLoop c op) s := by simp [meas, Job.rank]
  refine wpP_call (currentToken_wp h) ?_
  rintro ⟨ts, t⟩ s1 ⟨h1, ha⟩
  have hl1 : s1.len ≤ s.len := ha.len h.wf
  have hts : Tr ts := ha.trivia fun _ h => h
  have hnc2 : NoCloser (mid ++ tt ts) := noCloser_append hnc (noCloser_tt hts)
  have hpr : proper (mid ++ tt ts) = proper mid := by rw [proper_append, proper_tt hts, List.append_nil]
  have hsl2 : (∃ x ∈ mid ++ tt ts, Flawed x) ∨ (proper (mid ++ tt ts)).length ≤ 1 := by
    rw [hpr]
    rcases hsl with ⟨x, hx, hf⟩ | h | h
    · exact Or.inl ⟨x, by simp [hx], hf⟩
    · exact Or.inr (by simp [h])
    · exact Or.inr h.1
  have miss : ∀ {s3 cs}, U.ρ op cs → On U F C G [.node (.groupMissingCloser op) cs] [] s3 → s3.len ≤ s.len →
      ∃ n, Done U F C G n s s3 ∧ Extra U C G (.tok o :: mid) s s3 n (.groupLoop c op) := by
    intro s3 cs hρ h3 hl
    exact ⟨_, ⟨h3, trivial, holds_closed rfl, .of_ends rfl fun _ => Or.inr rfl, hl⟩, fun _ => .missing hρ⟩
  refine wpP_ite (fun hc => ?_) (fun hc => wpP_ite (fun hcl2 => ?_) (fun hncl => ?_))
  · have hcl' := hcl
    have hc' : c = tokenToCloser t.kind := hc.symm
    rw [hc'] at hcl'
    have htc := opens_facts _ _ hcl'
    have hne := (closer_kinds _ htc).1
    refine wpP_call (commitNext_wp (ts := ts) h1 ha.ready.toHere hne (ha.ready.at hne)) ?_
    rintro _ s2 ⟨h2, e2⟩
    have hl2 := len_skip_lt ha.ready hne e2
    have hg : GroupShape op (.tok o :: mid ++ (tt ts ++ [.tok t])) :=
      ⟨o, mid ++ tt ts, t, by simp, hop, hnc2, htc, hcl', hsl2⟩
    refine wpP_call (reduceGroup_wp h2 (.group hg) (by simp)) ?_
    rintro _ s3 ⟨h3, e3⟩
    have hl3 : s3.len = s2.len := by unfold PS.len; rw [e3]
    refine wpP_mono (climb_wp hrec h3 trivial (holds_closed rfl) (stopT_none rfl) (by omega)) ?_
    rintro _ s4 ⟨n, hd, -, hH, -⟩
    refine ⟨n, hd.of_le (by omega), fun hT => ?_⟩
    have := hH hT
    simp at this
    rw [← this]
    exact .group (by simpa using hg)
  · refine wpP_get ?_
    refine wpP_ite (fun _ => ?_) (fun _ => ?_)
    · refine wpP_call (triviaReset_wp h h1 ha) ?_
      rintro _ s2 ⟨h2, hs2⟩
      have hl2 := SameAt.len hs2
      have hρ := U.raw op _ ⟨o, mid, rfl, hop, hnc⟩
      refine wpP_mono (reduceGroup_wp h2 (.missing hρ) (by simp)) ?_
      rintro _ s3 ⟨h3, e3⟩
      exact miss hρ h3 (by unfold PS.len at *; rw [e3]; omega)
    · refine wpP_call (pushTrivia_wp' h1) ?_
      rintro _ s2 ⟨h2, e2⟩
      have hl2 : s2.len = s1.len := by unfold PS.len; rw [e2]
      refine wpP_call (toplevelCloser_wp h2 (by rw [e2]; exact ha.ready) hcl2) ?_
      rintro _ s3 ⟨h3, hl3⟩
      refine wpP_mono (hrec (.groupLoop c op) F C G _ s3 ⟨o, mid ++ tt ts ++ [.tok (t.at .Error_UnexpectedCloser)], rfl, by simpa using h3, hop, hcl,
        noCloser_append hnc2 (noCloser_one fun t' ht' => by (cases ht'; show TK.isCloser .Error_UnexpectedCloser = false; decide)),
        Or.inl ⟨_, by simp, flawed_tok (t := t.at .Error_UnexpectedCloser) (show TK.isError .Error_UnexpectedCloser = true by decide)⟩⟩ ?_) ?_
      · simp only [meas, Job.rank]; omega
      · rintro _ s4 ⟨n, hd, he⟩
        exact ⟨n, hd.of_le (by omega), he⟩
  · refine wpP_call (pushTrivia_wp' h1) ?_
    rintro _ s2 ⟨h2, e2⟩
    have hl2 : s2.len = s1.len := by unfold PS.len; rw [e2]
    refine wpP_ite (fun _ => ?_) (fun hne => ?_)
    · refine wpP_mono (reduceUnterminated_wp h2 ⟨o, mid ++ tt ts, rfl, hop, hnc2⟩) ?_
      rintro _ s3 ⟨cs, hρ, h3, e3⟩
      exact miss hρ h3 (by unfold PS.len at *; rw [e3]; omega)
    · have hr : (Job.prefix t).rank ≤ 5 := by simp only [Job.rank]; split <;> omega
      refine wpP_call (prefix_wp hrec h2 (by rw [e2]; exact ha.ready) ha.stop (by omega)) ?_
      rintro _ s3 ⟨r, h3⟩
      have hl3 := h3.extra.strict0 rfl (by simpa using hncl) hne
      refine wpP_mono (hrec (.groupLoop c op) F C G _ s3 ⟨o, mid ++ tt ts ++ [r], rfl, by simpa using h3.on, hop, hcl,
        noCloser_append hnc2 (noCloser_one fun t' ht' => by (have := h3.operand; subst ht'; exact this.2.1)), ?_⟩ ?_) ?_
      · rcases hsl with ⟨x, hx, hf⟩ | hsl | ⟨h4, h5⟩
        · exact Or.inl ⟨x, by simp [hx], hf⟩
        · rcases h3.stop.halt (Nat.zero_le _) with hf | hf
          · exact Or.inl ⟨r, by simp, hf⟩
          · refine Or.inr (Or.inr ⟨?_, hf⟩)
            rw [proper_append, hpr, hsl]
            exact Nat.le_trans (List.length_filter_le ..) (by simp)
        · refine Or.inl ⟨r, by simp, h3.extra.bad ?_⟩
          have hah : Ahead U (c :: G) s.st ts t := .of_trivia ha fun k hk hk' => by
            have := (ha.all k hk).2.1
            rw [hk'] at this
            exact absurd this (by simp [KOK, gin, Pol.inside, TK.fromSource])
          exact low_prefix _ (ha.ready.real hne) (h5 ts t hah) ha.stop (by simpa using hncl)
      · simp only [meas, Job.rank]; omega
      · rintro _ s4 ⟨n, hd, he⟩
        exact ⟨n, hd.of_le (by omega), he⟩

/-! ### All together -/

theorem step_infix (hrec : RecOK U rec (meas (.infix t) s)) (hpre : Pre U F C G (.infix t) X s) :
    wpP U.E (parseInfix U.env rec t) s (fun _ s' => ∃ n, Done U F C G n s s' ∧ Extra U C G X s s' n (.infix t)) := by
  obtain ⟨p, l, ts, t0, rfl, h⟩ := hpre
  have hm : 8 * s.len ≤ meas (.infix t) s := by unfold meas; omega
  suffices hI : wpP U.E (parseInfix U.env rec t) s (fun _ s' => InfixPost U F C G l s s') from hI
  have hf := infix_facts t.kind
  unfold infixFacts at hf
  by_cases hF : t.kind = .Fake_ImplicitTimes
  · have hk : t.kind.infixParselet = .times := (infix_kinds t.kind).2.2.2.1 hF
    unfold parseInfix
    rw [hk]
    have hop : opPrec t.kind = some Prec.STAR := by simp [opPrec, hk]
    obtain rfl : p = Prec.STAR := h.prec _ hop
    exact loopInfix_wp (op := .Times) hrec h (.times hk) hop (fun s' r X h1 h2 => ⟨_, r, h1, h2⟩) (fun _ _ _ _ h => h) rfl
      hm (fun _ => by simp [meas, Job.rank, hF])
  have hre : infixReal t.kind = true := by
    have := h.src
    cases this with
    | real _ h _ => exact h
    | fake _ _ _ => exact absurd rfl hF
  unfold parseInfix
  unfold infixReal at hre
  cases hk : t.kind.infixParselet with
  | assertFalse => rw [hk] at hre; cases hre
  | toplevelNewline => rw [hk] at hre; cases hre
  | implicitTimes => rw [hk] at hre; cases hre
  | differentialD => rw [hk] at hre; cases hre
  | times =>
    obtain rfl : p = Prec.STAR := h.prec _ (by simp [opPrec, hk])
    exact loopInfix_wp (op := .Times) hrec h (.times hk) (by simp [opPrec, hk]) (fun s' r X h1 h2 => ⟨_, r, h1, h2⟩) (fun _ _ _ _ h => h) rfl
      hm (fun h => absurd h hF)
  | semi => rw [hk] at hf; exact semiInfix_wp hrec h (by simpa using hf) hm
  | comma => exact commaInfix_wp hrec h hF hk hm
  | semiSemi => rw [hk] at hf; exact semiSemiInfix_wp hrec h (by simpa using hf) hm
  | tilde => rw [hk] at hf; exact tildeInfix_wp hrec h (by simpa using hf) hm
  | colon => rw [hk] at hf; exact colonInfix_wp hrec h (by simpa using hf) hm
  | slashColon => rw [hk] at hf; exact slashColonInfix_wp hrec h (by simpa using hf) hm
  | equal => exact equalInfix_wp hrec h hF hk hm
  | colonEqual =>
    obtain rfl : p = Prec.COLONEQUAL := h.prec _ (by simp [opPrec, hk])
    exact binaryInfix_wp hrec h hF (.setDelayed hk) hm
  | colonColon => rw [hk] at hf; exact colonColonInfix_wp hrec h (by simpa using hf) hm
  | greaterGreater => exact putInfix_wp hrec h hF (.put hk) hm
  | greaterGreaterGreater => exact putInfix_wp hrec h hF (.putAppend hk) hm
  | binary q op =>
    obtain rfl : p = q := h.prec _ (by simp [opPrec, hk])
    exact binaryInfix_wp hrec h hF (.table hk) hm
  | «infix» q op =>
    rw [hk] at hf
    simp only [Bool.and_eq_true, bne_iff_ne] at hf
    obtain rfl : p = q := h.prec _ (by simp [opPrec, hk])
    exact loopInfix_wp (op := op) hrec h (.table hk) (by simp [opPrec, hk])
      (fun s' r X h1 h2 => ⟨_, r, h1, h2, hf.1.1.1, hf.1.1.2⟩) (fun _ _ _ _ h => h) rfl hm (fun h => absurd h hF)
  | «postfix» q op => exact postfixInfix_wp hrec h hF hk hm
  | call o op =>
    rw [hk] at hf
    simp only [Bool.and_eq_true, beq_iff_eq] at hf
    obtain ⟨⟨rfl, h1⟩, h2⟩ := hf
    obtain ⟨cop, h2⟩ := Option.isSome_iff_exists.mp h2
    exact callInfix_wp hrec h hF hk h1 h2 hm

theorem step_wp {j : Job} (hrec : RecOK U rec (meas j s)) (hpre : Pre U F C G j X s) :
    wpP U.E (step U.env rec j) s (fun _ s' => ∃ n, Done U F C G n s s' ∧ Extra U C G X s s' n j) := by
  cases j with
  | «prefix» t => exact step_prefix hrec hpre
  | climb => exact step_climb hrec hpre
  | «infix» t => exact step_infix hrec hpre
  | groupLoop c op => exact step_groupLoop hrec hpre
  | infixLoop op => exact step_infixLoop hrec hpre
  | timesLoop => exact step_timesLoop hrec hpre
  | commaLoop => exact step_commaLoop hrec hpre
  | semiLoop => exact step_semiLoop hrec hpre
  | colonColonLoop => exact step_colonColonLoop hrec hpre

theorem run_wp : ∀ (n : Nat) (j : Job) (F : Fr) (C : List (Nat × Nat)) (G : List Closer) (X : List Cst) (s : PS),
    Pre U F C G j X s → meas j s < n →
    wpP U.E (run U.env n j) s (fun _ s' => ∃ n, Done U F C G n s s' ∧ Extra U C G X s s' n j)
  | 0, _, _, _, _, _, _, _, h => absurd h (Nat.not_lt_zero _)
  | n + 1, j, F, C, G, X, s, hpre, hm => by
    refine step_wp (rec := run U.env n) ?_ hpre
    intro j' F' C' G' X' s' hpre' hm'
    exact run_wp n j' F' C' G' X' s' hpre' (by omega)

end
end CodeParser
