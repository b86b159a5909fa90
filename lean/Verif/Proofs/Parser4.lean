import Verif.Proofs.Parser3
/-!
The parser: prefix parselets and climbing (helper lemmas).
-/
namespace CodeParser
open Spec Cst

section
variable {U : Setup} {F : Fr} {C C' : List (Nat × Nat)} {G G' : List Closer} {X Y Z : List Cst} {s s' : PS}
  {k t o : Tok} {ts us : List Tok} {n l x : Cst} {p q top : Nat} {u v : St} {rec : Job → P Unit} {m : Nat}

/-! ### Single trees -/

theorem holds_tok : Holds top (.tok t) := fun _ h => by cases h

theorem holds_closed {k : NodeKind} (h : leftOpen k = false) : Holds top (.node k X) := by
  intro q hq
  cases X with
  | nil => cases hq
  | cons c cs => simp [heads, h] at hq

theorem stopT_tok : StopT U G u (.tok t) := .of_tails rfl

theorem ends_error (h : t.kind.isError = true) : ends (.tok t) = false := by
  unfold ends; simp [h]

theorem ends_hollow {f : TK} (h : invented f = true) : ends (.tok (t.atStart f)) = false := by
  unfold ends
  show (!(f.isError || invented f)) = false
  simp [h]

theorem extraP (hlt : s'.len < s.len) (h1 : t.kind.prefixParselet ≠ .semiSemi)
    (h2 : ∀ p op, t.kind.prefixParselet ≠ .op p op)
    (h3 : t.kind.prefixParselet = .error ∨ t.kind.prefixParselet = .unsupported → Flawed n) : ExtraP C t s s' n := by
  refine ⟨fun h => absurd ((prefix_kinds _).2.2.2.2.1 h) h1, fun h => ?_, fun _ => hlt, fun _ _ _ => hlt, h3⟩
  have := differential_prefix _ h
  split at this
  · rename_i hp; exact absurd hp (h2 _ _)
  · cases this

theorem Ready.noEof {g : Bool} (_ : Ready cfg g u t) (h : consuming t.kind = true) : t.kind ≠ .EndOfFile := by
  intro h'
  unfold consuming at h
  rw [(prefix_kinds t.kind).2.2.2.2.2.1 h'] at h
  cases h

theorem consuming_of {q : PrefixParselet} (h : t.kind.prefixParselet = q)
    (hq : (match (generalizing := false) q with | .closer | .eof | .comma | .unhandled => false | _ => true) = true) : consuming t.kind = true := by
  unfold consuming; rw [h]; exact hq

theorem leafPrefix_wp (hrec : RecOK U rec m) (h : On U F C G [] [] s) (hr : Ready U.env.cfg (gin G) s.st t)
    (hc : consuming t.kind = true) (ho : operandKind t.kind = true) (hm : 8 * s.len ≤ m) :
    wpP U.E (leafPrefix rec t) s (fun _ s' => ∃ n, Done U F C G n s s' ∧ s'.len < s.len) := by
  have hne := hr.noEof hc
  refine wpP_call (pushNext_wp h hr.toHere hne (hr.at hne)) ?_
  rintro _ s1 ⟨h1, e1⟩
  have hl := len_skip_lt hr hne e1
  refine wpP_mono (climb_wp hrec h1 (operandKind_iff.mpr ho) holds_tok stopT_tok (by omega)) ?_
  rintro _ s2 ⟨n, hd, -⟩
  have := hd.len
  exact ⟨n, hd.of_le (by omega), by omega⟩

theorem errorPrefix_wp (h : On U F C G [] [] s) (hr : Ready U.env.cfg (gin G) s.st t)
    (hc : consuming t.kind = true) (ho : operandKind t.kind = true) (he : t.kind.isError = true) :
    wpP U.E (errorPrefix t) s (fun _ s' => ∃ n, Done U F C G n s s' ∧ s'.len < s.len ∧ Flawed n) := by
  have hne := hr.noEof hc
  unfold errorPrefix
  rw [if_pos he]
  refine wpP_mono (pushNext_wp h hr.toHere hne (hr.at hne)) ?_
  rintro _ s1 ⟨h1, e1⟩
  have hl := len_skip_lt hr hne e1
  exact ⟨.tok t, ⟨h1, operandKind_iff.mpr ho, holds_tok, .of_ends (ends_error he) fun _ => flawed_tok he, by omega⟩, hl, flawed_tok he⟩

/-- The kinds of tokens for a missing operand. -/
def missingOp (k : TK) : Prop :=
  k = .Error_InfixImplicitNull ∨ k = .Error_ExpectedOperand ∨ k = .Error_PrefixImplicitNull

theorem missingOp_facts {f : TK} (h : missingOp f) : operandKind f = true ∧ invented f = true := by
  rcases h with rfl | rfl | rfl <;> exact ⟨by decide, rfl⟩

theorem missingOp_error {f : TK} (h : missingOp f) : f.isError = true := by
  rcases h with rfl | rfl | rfl <;> decide

theorem missingKind_op : missingOp (missingKind s) := by
  unfold missingKind missingOp; split <;> simp

theorem hollow_done {f : TK} (hf : missingOp f) (h : On U F C G [.tok (t.atStart f)] [] s') (hl : s'.len ≤ s.len) :
    Done U F C G (.tok (t.atStart f)) s s' :=
  ⟨h, operandKind_iff.mpr (missingOp_facts hf).1, holds_tok, .of_ends (ends_hollow (missingOp_facts hf).2) fun _ => flawed_tok (missingOp_error hf), hl⟩

theorem extraP_none (hc : consuming t.kind = false) (h1 : t.kind ≠ .SemiSemi) (h2 : t.kind.isDifferential = false)
    (h0 : topOf C = 0 → t.kind.isCloser = false → t.kind ≠ .EndOfFile → s'.len < s.len) : ExtraP C t s s' n :=
  ⟨fun h => absurd h h1, fun h => by (rw [h2] at h; cases h), fun h => by (rw [hc] at h; cases h), h0,
    fun h => by (unfold consuming at hc; rcases h with h | h <;> rw [h] at hc <;> cases hc)⟩

theorem notConsuming : ∀ k : TK, consuming k = false → k ≠ .SemiSemi ∧ k.isDifferential = false :=
  Props.forall_of_all (by decide +kernel)

theorem closerPrefix_wp (h : On U F C G [] [] s) (hr : Ready U.env.cfg (gin G) s.st t)
    (hc : t.kind.isCloser = true) :
    wpP U.E (closerPrefix U.env t) s (fun _ s' => ∃ n, Done U F C G n s s') := by
  unfold closerPrefix
  rw [if_pos hc]
  refine wpP_get ?_
  refine wpP_call (pushHollow_wp _ (missingOp_facts missingKind_op).2 h hr.toHere) ?_
  rintro _ s1 ⟨h1, e1⟩
  refine wpP_call (peekP_wp h1) ?_
  rintro k s2 ⟨h2, hs2, -, -⟩
  refine wpP_pure ⟨_, hollow_done missingKind_op h2 ?_⟩
  rw [SameAt.len hs2]; unfold PS.len; rw [e1]

theorem eofPrefix_wp (h : On U F C G [] [] s) (hr : Ready U.env.cfg (gin G) s.st t) :
    wpP U.E (eofPrefix t) s (fun _ s' => ∃ n, Done U F C G n s s') := by
  unfold eofPrefix
  refine wpP_get ?_
  refine wpP_mono (pushHollow_wp _ (missingOp_facts missingKind_op).2 h hr.toHere) ?_
  rintro _ s1 ⟨h1, e1⟩
  exact ⟨_, hollow_done missingKind_op h1 (by unfold PS.len; rw [e1])⟩

/-- Pushing a token under another kind. -/
theorem pushAt_wp {E : Err → Prop} (f : TK) (h : On U F C G X [] s) (hk : Here U.env.cfg s.st k) (hne : k.kind ≠ .EndOfFile)
    (hf : invented f = false) (hsp : spare f = false) (ho : TokOK k) (hi : invented k.kind = false) (hn : ¬ isNewline k.kind)
    (hfn : ¬ isNewline f := by rintro (h | h) <;> cases h) :
    wpP E (do pushTok (k.at f); skipP k) s (fun _ s' => On U F C G (X ++ [.tok (k.at f)]) [] s' ∧ s'.st = k.skipSt s.st) := by
  refine ⟨⟨R.trans U.wf0 h.reach hk.skip, ?_, ?_, h.ctxs, h.groups, ?_, ?_, ?_⟩, rfl⟩
  · show (k.kind == .EndOfFile) = false
    simpa using hne
  · show _ :: s.stack = _
    rw [h.stack]; simp
  · intro c hc
    have := h.trees c
    simp at hc this
    rcases hc with hc | rfl
    · exact this hc
    · exact .tok ⟨fun h' => by (have h' : invented f = true := h'; rw [hf] at h'; cases h'), fun _ => ho.solid hi,
        fun h => absurd (ho.line h) hn, hsp⟩
  · obtain ⟨ks, h1, h2, hu⟩ := h.spans
    rw [List.append_nil] at h1 ⊢
    exact ⟨ks ++ [k.at f], h1.append (Has.tt (ts := [_])), h2.snoc (k := k.at f) hk.split hk.start hk.moves, hu⟩
  · have := h.newlines.append (NLs.tok (k := k.at f) (NLTok.of_not hfn))
    simpa using this

theorem unsupportedPrefix_wp (h : On U F C G [] [] s) (hr : Ready U.env.cfg (gin G) s.st t) (hc : consuming t.kind = true) (ht : t.kind.isTrivia = false) :
    wpP U.E (unsupportedPrefix t) s (fun _ s' => ∃ n, Done U F C G n s s' ∧ s'.len < s.len ∧ Flawed n) := by
  have hne := hr.noEof hc
  refine wpP_mono (pushAt_wp .Error_UnsupportedToken h hr.toHere hne rfl rfl (hr.ok hne) (real_invented _ (hr.real hne)) (by rintro (h | h) <;> rw [h] at ht <;> revert ht <;> decide)) ?_
  rintro _ s1 ⟨h1, e1⟩
  have hl := len_skip_lt hr hne e1
  have hfl : Flawed (.tok (t.at .Error_UnsupportedToken)) := flawed_tok (show TK.isError .Error_UnsupportedToken = true by decide)
  exact ⟨_, ⟨h1, operandKind_iff.mpr (show operandKind .Error_UnsupportedToken = true by decide), holds_tok,
    .of_ends (ends_error (show TK.isError .Error_UnsupportedToken = true by decide)) fun _ => hfl, by omega⟩, hl, hfl⟩

theorem toplevelCloser_wp {E : Err → Prop} (h : On U F C G X [] s) (hr : Ready U.env.cfg (gin G) s.st t) (hc : t.kind.isCloser = true) :
    wpP E (toplevelCloser t) s (fun _ s' => On U F C G (X ++ [.tok (t.at .Error_UnexpectedCloser)]) [] s' ∧ s'.len < s.len) := by
  have hne := (closer_kinds _ hc).1
  unfold toplevelCloser
  rw [if_pos hc]
  refine wpP_mono (pushAt_wp .Error_UnexpectedCloser h hr.toHere hne rfl rfl (hr.ok hne) (real_invented _ (hr.real hne)) (by rintro (h | h) <;> rw [h] at hc <;> revert hc <;> decide)) ?_
  rintro _ s1 ⟨h1, e1⟩
  exact ⟨h1, len_skip_lt hr hne e1⟩

theorem commaPrefix_wp (hrec : RecOK U rec m) (h : On U F C G [] [] s) (hr : Ready U.env.cfg (gin G) s.st t)
    (hp : t.kind.prefixParselet = .comma) (hm : 8 * s.len + 5 ≤ m) :
    wpP U.E (commaPrefix rec t) s (fun _ s' => ∃ n, Done U F C G n s s' ∧ (topOf C = 0 → s'.len < s.len)) := by
  unfold commaPrefix
  refine wpP_get ?_
  have hf : missingOp (if s.topPrec = 0 then .Error_PrefixImplicitNull else .Error_ExpectedOperand) := by
    unfold missingOp; split <;> simp
  refine wpP_call (pushHollow_wp _ (missingOp_facts hf).2 h hr.toHere) ?_
  rintro _ s1 ⟨h1, e1⟩
  have hl : s1.len = s.len := by unfold PS.len; rw [e1]
  have hd := hollow_done hf h1 (Nat.le_of_eq hl)
  refine wpP_mono (climb_wp hrec h1 hd.operand hd.holds hd.stop.T (by omega)) ?_
  rintro _ s2 ⟨n, hd2, -, -, h0⟩
  refine ⟨n, hd2.of_le (by omega), fun ht => ?_⟩
  have := h0 ht t (by rw [e1]; exact hr) hp
  omega

/-! ### Precedences -/

theorem topPrec_eq (h : On U F C G X Z s) : s.topPrec = topOf C := by
  unfold PS.topPrec topOf
  rw [h.ctxs]
  cases C <;> rfl

/-- What is to be known about the precedence found for a kind. -/
structure PrecOf (k : TK) (top p : Nat) : Prop where
  op : ∀ q, opPrec k = some q → p = q
  colon : k.infixParselet = .colon → 3 ≤ p
  diff : k.infixParselet = .differentialD → top = Prec.CLASS_INTEGRATIONOPERATORS → p = 0
  lt : p < 189

theorem infixPrec_wp {E : Err → Prop} {k : TK} (h : k.infixParselet ≠ .implicitTimes) :
    wpP E (infixPrec k) s (fun p s' => s' = s ∧ PrecOf k s.topPrec p) := by
  have hf := infix_facts k
  unfold infixFacts at hf
  unfold wpP infixPrec
  cases hk : k.infixParselet with
  | implicitTimes => exact absurd hk h
  | colon =>
    refine ⟨rfl, ?_, ?_, ?_, ?_⟩
    · intro q hq; simp [opPrec, hk] at hq
    · intro _; split <;> decide
    · intro h; rw [hk] at h; cases h
    · split <;> decide
  | differentialD =>
    refine ⟨rfl, ?_, ?_, ?_, ?_⟩
    · intro q hq; simp [opPrec, hk] at hq
    · intro h; rw [hk] at h; cases h
    · intro _ ht; rw [if_pos ht]
    · split <;> decide
  | binary p op =>
    rw [hk] at hf; simp at hf
    exact ⟨rfl, fun q hq => by simpa [opPrec, hk] using hq, fun h => (by rw [hk] at h; cases h), fun h => (by rw [hk] at h; cases h), hf.2⟩
  | «infix» p op =>
    rw [hk] at hf; simp at hf
    exact ⟨rfl, fun q hq => by simpa [opPrec, hk] using hq, fun h => (by rw [hk] at h; cases h), fun h => (by rw [hk] at h; cases h), hf.2⟩
  | «postfix» p op =>
    rw [hk] at hf; simp at hf
    exact ⟨rfl, fun q hq => by simpa [opPrec, hk] using hq, fun h => (by rw [hk] at h; cases h), fun h => (by rw [hk] at h; cases h), hf⟩
  | _ =>
    exact ⟨rfl, fun q hq => by simpa [opPrec, hk] using hq, fun h => (by rw [hk] at h; cases h), fun h => (by rw [hk] at h; cases h), by decide⟩

theorem precGreater_iff : precGreater top p = true ↔ keeps top p := by
  unfold precGreater keeps; simp

theorem or_one_pos (n : Nat) : 0 < n ||| 1 := by
  have := Nat.right_le_or (n := n) (m := 1)
  omega

theorem keeps_zero : keeps q 0 := or_one_pos q

theorem keeps_mono {r r' : Nat} (h : keeps q r) (hr : r' ≤ r) : keeps q r' := Nat.lt_of_le_of_lt hr h

theorem infixReal_of (hp : PrecOf t.kind top p) (hk : ¬ keeps top p) (h1 : t.kind.infixParselet ≠ .implicitTimes)
    (h2 : t.kind.infixParselet = .differentialD → top = Prec.CLASS_INTEGRATIONOPERATORS) : infixReal t.kind = true := by
  have h0 : p ≠ 0 := fun h => hk (by rw [h]; exact keeps_zero)
  unfold infixReal
  split
  · rename_i hq; exact absurd (hp.op 0 (by simp [opPrec, hq])) h0
  · rename_i hq; exact absurd (hp.op 0 (by simp [opPrec, hq])) h0
  · rename_i hq; exact absurd hq h1
  · rename_i hq; exact absurd (hp.diff hq (h2 hq)) h0
  · rfl

theorem real_notFake : ∀ k : TK, k.real = true → k ≠ .Fake_ImplicitTimes :=
  Props.forall_of_all (by decide +kernel)

theorem Ready.notFake {g : Bool} (h : Ready cfg g u t) : t.kind ≠ .Fake_ImplicitTimes := by
  rcases h.kind with h | h
  · rw [h]; decide
  · exact real_notFake _ (KOK_real h)

theorem unhandledPrefix_wp (hrec : RecOK U rec m) (h : On U F C G [] [] s) (hr : Ready U.env.cfg (gin G) s.st t)
    (hp : t.kind.prefixParselet = .unhandled) (ht : t.kind.isTrivia = false) (hm : 8 * s.len + 5 ≤ m) :
    wpP U.E (unhandledPrefix U.env rec t) s (fun _ s' => ∃ n, Done U F C G n s s' ∧ (topOf C = 0 → s'.len < s.len)) := by
  have hf := prefix_facts t.kind (hr.kind.symm.imp KOK_real id) ht
  unfold prefixFacts at hf
  rw [hp] at hf
  simp only [Bool.and_eq_true, Bool.not_eq_true'] at hf
  obtain ⟨⟨⟨⟨⟨hf1, hf2⟩, hf3⟩, hf4⟩, hf5⟩, hf6⟩ := hf
  have hni : t.kind.infixParselet ≠ .implicitTimes := by
    intro h; unfold infixReal at hf2; rw [h] at hf2; cases hf2
  have hnd : t.kind.infixParselet ≠ .differentialD := by
    intro h; unfold infixReal at hf2; rw [h] at hf2; cases hf2
  unfold unhandledPrefix
  rw [if_neg (by rw [hf1]; simp)]
  have hmo : missingOp .Error_ExpectedOperand := by unfold missingOp; simp
  refine wpP_call (pushHollow_wp _ rfl h hr.toHere) ?_
  rintro _ s1 ⟨h1, e1⟩
  have hr1 : Ready U.env.cfg (gin G) s1.st t := by rw [e1]; exact hr
  refine wpP_call (peekP_wp h1) ?_
  rintro _ s2 ⟨h2, hs2, hR2, -⟩
  have hr2 := hr1.congr h1.wf hs2 hR2.keep
  have hl : s2.len = s.len := by rw [SameAt.len hs2]; unfold PS.len; rw [e1]
  have hd := hollow_done hmo h2 (Nat.le_of_eq hl)
  refine wpP_call (infixPrec_wp hni) ?_
  rintro p s3 ⟨rfl, hpr⟩
  refine wpP_get ?_
  rw [topPrec_eq h2] at hpr ⊢
  refine wpP_ite (fun hg => ?_) (fun hg => ?_)
  · refine wpP_pure ⟨_, hd, fun h0 => ?_⟩
    have hk : keeps 0 p := by rw [← h0]; exact precGreater_iff.mp hg
    have hp0 : p = 0 := by
      have : p < 1 := hk
      omega
    split at hf5
    · rename_i q hq
      have h5 := of_decide_eq_true hf5
      have := hpr.op q hq
      omega
    · have := hpr.colon (by simpa using hf5)
      omega
  · rw [precGreater_iff] at hg
    refine wpP_call (pushContext_wp p h2) ?_
    rintro _ s4 ⟨h4, e4⟩
    have hl4 : s4.len = s.len := by unfold PS.len at *; rw [e4, hl]
    refine wpP_mono (hrec (.infix t) F C G [_] s4 ⟨p, _, [], t, rfl, h4, hd.operand, hd.holds, by simp [Tr], Or.inr hg,
      hpr.op, .real (by rw [e4]; exact hr2) hf2 hr.notFake, Or.inr (Or.inl (ends_hollow rfl))⟩ ?_) ?_
    · simp only [meas, Job.rank]
      rw [if_neg hr.notFake]; omega
    · rintro _ s5 ⟨n, hd5, -, hlt⟩
      exact ⟨n, hd5.of_le (by omega), fun _ => by omega⟩

/-! ### Compounds -/

theorem compound_climb_wp {op : CompoundOp} (hrec : RecOK U rec m) (h : On U F C G [] Z s)
    (hs : CompoundShape op X) (ht : ∀ c ∈ X, TreeOK U.ρ c) (hl : leavesL X = leavesL Z) (hz : completeL Z = true)
    (hm : 8 * s.len + 4 < m) (hb : bracketsL X = [] := by rfl) (ho : outsideL X = outsideL Z := by rfl) :
    wpP U.E (pushClimb rec (.node (.compound op) X)) s (fun _ s' => ∃ n, Done U F C G n s s') := by
  refine wpP_call (pushNode_wp h (.node (.compound hs) ht) (by rw [leavesL_node]; exact hl) (fun _ => hz)
    (fun hN => (NLs.replace (X := []) hN hb hl ho).node rfl)) ?_
  rintro _ s1 ⟨h1, e1⟩
  have hl : s1.len = s.len := by unfold PS.len; rw [e1]
  refine wpP_mono (climb_wp hrec h1 trivial (holds_closed rfl) (stopT_none rfl) (by omega)) ?_
  rintro _ s2 ⟨n, hd, -⟩
  exact ⟨n, hd.of_le (by omega)⟩

theorem tok_climb_wp (hrec : RecOK U rec m) (h : On U F C G [] [.tok t] s) (ho : operandKind t.kind = true)
    (hm : 8 * s.len + 4 < m) :
    wpP U.E (pushClimb rec (.tok t)) s (fun _ s' => ∃ n, Done U F C G n s s') := by
  refine wpP_call (pushTokP_wp h) ?_
  rintro _ s1 ⟨h1, e1⟩
  have hl : s1.len = s.len := by unfold PS.len; rw [e1]
  refine wpP_mono (climb_wp hrec h1 (operandKind_iff.mpr ho) holds_tok stopT_tok (by omega)) ?_
  rintro _ s2 ⟨n, hd, -⟩
  exact ⟨n, hd.of_le (by omega)⟩

/-- What `parseUnder` gives. -/
inductive UnderOf (bop : CompoundOp) (t : Tok) : Cst → List Cst → Prop
  | bare : UnderOf bop t (.tok t) [.tok t]
  | head {t2 : Tok} : t2.kind = .Symbol ∨ t2.kind = .Error_ExpectedLetterlike →
      UnderOf bop t (.node (.compound bop) [.tok t, .tok t2]) [.tok t, .tok t2]

theorem parseUnder_wp {bop : CompoundOp} (h : On U F C G X Z s) (hr : Ready U.env.cfg (gin G) s.st t)
    (hne : t.kind ≠ .EndOfFile) :
    wpP U.E (parseUnder U.env bop t) s (fun c s' => ∃ W, On U F C G X (Z ++ W) s' ∧ UnderOf bop t c W ∧ s'.len < s.len) := by
  refine wpP_call (skipP_wp h hr.toHere hne (hr.at hne)) ?_
  rintro _ s1 ⟨h1, e1⟩
  have hl1 := len_skip_lt hr hne e1
  refine wpP_call (peekP_wp h1) ?_
  rintro t2 s2 ⟨h2, hs2, -, hr2⟩
  have hl2 := SameAt.len hs2
  refine wpP_ite (fun hc => ?_) (fun _ => wpP_pure ⟨[.tok t], h2, .bare, by omega⟩)
  have hne2 : t2.kind ≠ .EndOfFile := by rcases hc with h | h <;> rw [h] <;> decide
  refine wpP_call (skipP_wp h2 hr2.toHere hne2 (hr2.at hne2)) ?_
  rintro _ s3 ⟨h3, e3⟩
  have hl3 := len_skip_lt hr2 hne2 e3
  exact wpP_pure ⟨[.tok t, .tok t2], by rw [List.append_assoc] at h3; exact h3, .head hc, by omega⟩

theorem UnderOf.leaves {bop : CompoundOp} {W : List Cst} (h : UnderOf bop t n W) : leavesL [n] = leavesL W ∧ completeL W = true ∧
    bracketsL [n] = [] ∧ outsideL [n] = outsideL W := by
  cases h with
  | bare => exact ⟨rfl, rfl, rfl, rfl⟩
  | head _ => exact ⟨rfl, rfl, rfl, rfl⟩

theorem UnderOf.tree {bop : CompoundOp} {W : List Cst} (h : UnderOf bop t n W) (hb : BlankOf t.kind bop)
    (ht : ∀ c ∈ W, TreeOK U.ρ c) : TreeOK U.ρ n := by
  cases h with
  | bare => exact ht _ (by simp)
  | head h2 => exact .node (.compound (.blank hb h2)) ht

theorem underPrefix_wp {bop : CompoundOp} (hrec : RecOK U rec m) (h : On U F C G [] [] s) (hr : Ready U.env.cfg (gin G) s.st t)
    (hc : consuming t.kind = true) (ho : operandKind t.kind = true) (hb : BlankOf t.kind bop) (hm : 8 * s.len ≤ m) :
    wpP U.E (underPrefix U.env rec bop t) s (fun _ s' => ∃ n, Done U F C G n s s' ∧ s'.len < s.len) := by
  refine wpP_call (parseUnder_wp h hr (hr.noEof hc)) ?_
  rintro c s1 ⟨W, h1, hu, hl⟩
  rw [List.nil_append] at h1
  have : wpP U.E (pushClimb rec c) s1 (fun _ s' => ∃ n, Done U F C G n s1 s') := by
    cases hu with
    | bare => exact tok_climb_wp hrec h1 ho (by omega)
    | head h2 => exact compound_climb_wp hrec h1 (.blank hb h2) (by simpa using h1.trees) rfl rfl (by omega)
  refine wpP_mono this ?_
  rintro _ s2 ⟨n, hd⟩
  have := hd.len
  exact ⟨n, hd.of_le (by omega), by omega⟩

theorem symbolUnder_wp {bop pbop : CompoundOp} (hrec : RecOK U rec m) (h : On U F C G [] [.tok t] s) (ht : t.kind = .Symbol)
    (hr : Ready U.env.cfg (gin G) s.st k) (hb : BlankOf k.kind bop) (hp : PatternOf k.kind pbop) (hm : 8 * s.len + 4 < m) :
    wpP U.E (symbolUnder U.env rec t bop pbop k) s (fun _ s' => ∃ n, Done U F C G n s s') := by
  have hne : k.kind ≠ .EndOfFile := by generalize k.kind = q at hb; cases hb <;> decide
  refine wpP_call (parseUnder_wp h hr hne) ?_
  rintro c s1 ⟨W, h1, hu, hl⟩
  have htt : TreeOK U.ρ (.tok t) := h1.trees _ (by simp)
  have hW : ∀ c ∈ W, TreeOK U.ρ c := fun c hc => h1.trees c (by simp [hc])
  have hs : CompoundShape pbop [.tok t, c] := by
    cases hu with
    | bare => exact .pattern ht hp
    | head h2 => exact .patternHead ht hp hb
  refine wpP_mono (compound_climb_wp hrec h1 hs ?_ ?_ ?_ (by omega) hu.leaves.2.2.1 ?_) ?_
  · intro c' hc'
    simp at hc'
    rcases hc' with rfl | rfl
    · exact htt
    · exact hu.tree hb hW
  · have := hu.leaves.1
    simp only [leavesL, List.append_nil] at this ⊢
    rw [this]; rfl
  · have := hu.leaves.2.1
    simp [completeL, complete, this]
  · have := hu.leaves.2.2.2
    simp only [outsideL, List.append_nil] at this ⊢
    rw [this]; rfl
  · rintro _ s2 ⟨n, hd⟩
    exact ⟨n, hd.of_le (by omega)⟩

theorem symbolPrefix_wp (hrec : RecOK U rec m) (h : On U F C G [] [] s) (hr : Ready U.env.cfg (gin G) s.st t)
    (ht : t.kind = .Symbol) (hm : 8 * s.len ≤ m) :
    wpP U.E (symbolPrefix U.env rec t) s (fun _ s' => ∃ n, Done U F C G n s s' ∧ s'.len < s.len) := by
  have hne : t.kind ≠ .EndOfFile := by rw [ht]; decide
  refine wpP_call (skipP_wp h hr.toHere hne (hr.at hne)) ?_
  rintro _ s1 ⟨h1, e1⟩
  rw [List.nil_append] at h1
  have hl1 := len_skip_lt hr hne e1
  refine wpP_call (peekP_wp h1) ?_
  rintro t2 s2 ⟨h2, hs2, -, hr2⟩
  have hl2 := SameAt.len hs2
  have : wpP U.E (symbolRest U.env rec t t2) s2 (fun _ s' => ∃ n, Done U F C G n s2 s') := by
    unfold symbolRest
    split
    · rename_i hk; exact symbolUnder_wp hrec h2 ht hr2 (by rw [hk]; exact .one) (by rw [hk]; exact .one) (by omega)
    · rename_i hk; exact symbolUnder_wp hrec h2 ht hr2 (by rw [hk]; exact .two) (by rw [hk]; exact .two) (by omega)
    · rename_i hk; exact symbolUnder_wp hrec h2 ht hr2 (by rw [hk]; exact .three) (by rw [hk]; exact .three) (by omega)
    · rename_i hk
      have hne2 : t2.kind ≠ .EndOfFile := by rw [hk]; decide
      refine wpP_call (skipP_wp h2 hr2.toHere hne2 (hr2.at hne2)) ?_
      rintro _ s3 ⟨h3, e3⟩
      have hl3 := len_skip_lt hr2 hne2 e3
      refine wpP_mono (compound_climb_wp hrec h3 (.default ht hk) (by simpa using h3.trees) rfl rfl (by omega)) ?_
      rintro _ s4 ⟨n, hd⟩
      exact ⟨n, hd.of_le (by omega)⟩
    · exact tok_climb_wp hrec h2 (by rw [ht]; decide) (by omega)
  refine wpP_mono this ?_
  rintro _ s3 ⟨n, hd⟩
  have := hd.len
  exact ⟨n, hd.of_le (by omega), by omega⟩

theorem slotPrefix_wp {pol : Pol} {op : CompoundOp} {str : Bool} (hrec : RecOK U rec m) (h : On U F C G [] [] s)
    (hr : Ready U.env.cfg (gin G) s.st t) (hc : consuming t.kind = true) (ho : operandKind t.kind = true)
    (hs : ∀ t2 : Tok, t2.kind = .Integer ∨ (str = true ∧ t2.kind = .String) → CompoundShape op [.tok t, .tok t2])
    (hm : 8 * s.len ≤ m) :
    wpP U.E (slotPrefix U.env rec pol op str t) s (fun _ s' => ∃ n, Done U F C G n s s' ∧ s'.len < s.len) := by
  have hne := hr.noEof hc
  refine wpP_call (skipP_wp h hr.toHere hne (hr.at hne)) ?_
  rintro _ s1 ⟨h1, e1⟩
  rw [List.nil_append] at h1
  have hl1 := len_skip_lt hr hne e1
  refine wpP_call (peekWithP_wp h1) ?_
  rintro t2 s2 ⟨h2, hs2, -, hh2, hk2⟩
  have hl2 := SameAt.len hs2
  refine wpP_ite (fun hc => ?_) (fun _ => ?_)
  · have hne2 : t2.kind ≠ .EndOfFile := by rcases hc with h | ⟨-, h⟩ <;> rw [h] <;> decide
    refine wpP_call (skipP_wp h2 hh2 hne2 ⟨hk2 hne2, .of_not (by rcases hc with h | ⟨-, h⟩ <;> rw [h] <;> rintro (h | h) <;> cases h)⟩) ?_
    rintro _ s3 ⟨h3, e3⟩
    have hl3 := len_skip hh2 e3
    refine wpP_mono (compound_climb_wp hrec h3 (hs t2 hc) (by simpa using h3.trees) rfl rfl (by omega)) ?_
    rintro _ s4 ⟨n, hd⟩
    have := hd.len
    exact ⟨n, hd.of_le (by omega), by omega⟩
  · refine wpP_mono (tok_climb_wp hrec h2 ho (by omega)) ?_
    rintro _ s4 ⟨n, hd⟩
    have := hd.len
    exact ⟨n, hd.of_le (by omega), by omega⟩

/-! ### Operators and groups -/

theorem opPrefix_wp {op : PrefixOp} (hrec : RecOK U rec m) (h : On U F C G [] [] s) (hr : Ready U.env.cfg (gin G) s.st t)
    (hp : t.kind.prefixParselet = .op p op) (hm : 8 * s.len ≤ m) :
    wpP U.E (opPrefix U.env rec p op t) s (fun _ s' => ∃ n, Done U F C G n s s' ∧ s'.len < s.len ∧ first n = some t) := by
  have hc : consuming t.kind = true := consuming_of hp rfl
  have hne := hr.noEof hc
  refine wpP_call (pushNext_wp h hr.toHere hne (hr.at hne)) ?_
  rintro _ s1 ⟨h1, e1⟩
  have hl1 := len_skip_lt hr hne e1
  refine wpP_call (pushContext_wp p h1) ?_
  rintro _ s2 ⟨h2, e2⟩
  have hl2 : s2.len = s1.len := by unfold PS.len; rw [e2]
  refine wpP_call (operand_wp' hrec h2 (by omega)) ?_
  rintro _ s3 ⟨us, t3, r, h3⟩
  have hl3 := h3.len
  refine wpP_mono (reduceClimb_wp hrec h3.on (.prefixOp hp h3.trivia h3.operand h3.holds) (by simp) (holds_closed rfl) ?_ (by omega)) ?_
  · show StopT U G s3.st (.node (.prefix op) ((.tok t :: tt us) ++ [r]))
    refine stopT_node (fun q hq => ?_) h3.stop
    simp only [List.cons_append, lastPrec, hp] at hq
    exact (Option.some.inj hq).symm
  · rintro _ s4 ⟨n, hd, hf⟩
    have := hd.len
    exact ⟨n, hd.of_le (by omega), by omega, hf⟩

theorem opens_newline {k : TK} {op : GroupOp} (h : Opens k op) : ¬ isNewline k := by
  rintro (rfl | rfl) <;> rcases h with h | h <;> revert h <;> cases op <;> decide

theorem isFile_newline {k : TK} (h : isFile k = true) : ¬ isNewline k := by
  rintro (rfl | rfl) <;> revert h <;> decide

theorem group_wp {op : GroupOp} (hrec : RecOK U rec m) (h : On U F C G [] [] s) (hr : Ready U.env.cfg (gin G) s.st t)
    (ho : Opens t.kind op) (hs : (groupOpenerToCloser t.kind).isSome = true) (hne : t.kind ≠ .EndOfFile) (hm : 8 * s.len ≤ m) :
    wpP U.E (groupPrefix rec t.kind op t) s (fun _ s' => ∃ n, Done U F C G n s s' ∧ s'.len < s.len ∧
      (topOf C = Prec.HIGHEST → GroupLike U op n)) := by
  obtain ⟨c, hc⟩ := Option.isSome_iff_exists.mp hs
  unfold groupPrefix
  simp only [hc]
  refine wpP_call (pushGroup_wp c h) ?_
  rintro _ s1 ⟨h1, e1⟩
  have hl1 : s1.len = s.len := by unfold PS.len; rw [e1]
  refine wpP_call (pushNext_wp h1 (by rw [e1]; exact hr.toHere) hne ⟨hr.ok hne, .of_not (opens_newline ho)⟩) ?_
  rintro _ s2 ⟨h2, e2⟩
  have hl2 : s2.len < s.len := len_skip_lt hr hne (by rw [e2, e1])
  refine wpP_call (pushContext_wp 0 h2) ?_
  rintro _ s3 ⟨h3, e3⟩
  have hl3 : s3.len = s2.len := by unfold PS.len; rw [e3]
  refine wpP_mono (hrec (.groupLoop c op) F C G [.tok t] s3 ⟨t, [], rfl, h3, ho, hc, ?_, Or.inr (Or.inl rfl)⟩ ?_) ?_
  · intro t' ht'; cases ht'
  · simp only [meas, Job.rank]; omega
  · rintro _ s4 ⟨n, hd, hg⟩
    have := hd.len
    exact ⟨n, hd.of_le (by omega), by omega, hg⟩

theorem semiSemiPrefix_wp (hrec : RecOK U rec m) (h : On U F C G [] [] s) (hr : Ready U.env.cfg (gin G) s.st t)
    (hk : t.kind = .SemiSemi) (hm : 8 * s.len + 1 < m) :
    wpP U.E (semiSemiPrefix rec t) s (fun _ s' => ∃ n, Done U F C G n s s' ∧ s'.len < s.len ∧
      ∃ f, first n = some f ∧ f.kind = .Fake_ImplicitOne) := by
  refine wpP_call (pushHollow_wp _ rfl h hr.toHere) ?_
  rintro _ s1 ⟨h1, e1⟩
  refine wpP_call (pushContext_wp _ h1) ?_
  rintro _ s2 ⟨h2, e2⟩
  have hl : s2.len = s.len := by unfold PS.len; rw [e2, e1]
  refine wpP_mono (hrec (.infix t) F C G [_] s2 ⟨_, _, [], t, rfl, h2, operandKind_iff.mpr (show operandKind .Fake_ImplicitOne = true by decide),
    holds_tok, by simp [Tr], Or.inl ⟨rfl, by rw [hk]; rfl⟩, ?_, .real (by rw [e2, e1]; exact hr) (by rw [hk]; rfl) hr.notFake, Or.inr (Or.inl (ends_hollow rfl))⟩ ?_) ?_
  · intro q hq; rw [hk] at hq; exact Option.some.inj hq
  · simp only [meas, Job.rank]
    rw [if_neg hr.notFake]; omega
  · rintro _ s3 ⟨n, hd, hf, hlt⟩
    exact ⟨n, hd.of_le (by omega), by omega, _, hf, rfl⟩

theorem lessLessPrefix_wp (hrec : RecOK U rec m) (h : On U F C G [] [] s) (hr : Ready U.env.cfg (gin G) s.st t)
    (hk : t.kind = .LessLess) (hm : 8 * s.len ≤ m) :
    wpP U.E (lessLessPrefix U.env rec t) s (fun _ s' => ∃ n, Done U F C G n s s' ∧ s'.len < s.len) := by
  have hne : t.kind ≠ .EndOfFile := by rw [hk]; decide
  refine wpP_call (pushNext_wp h hr.toHere hne (hr.at hne)) ?_
  rintro _ s1 ⟨h1, e1⟩
  have hl1 := len_skip_lt hr hne e1
  refine wpP_call (pushContext_wp _ h1) ?_
  rintro _ s2 ⟨h2, e2⟩
  have hl2 : s2.len = s1.len := by unfold PS.len; rw [e2]
  refine wpP_call (eatTriviaFile_wp h2 ⟨t, List.mem_cons_self, by rw [hk]; rfl⟩) ?_
  rintro f s3 ⟨us, h3, ha⟩
  have hl3 : s3.len ≤ s2.len := ha.reach.len h2.wf
  have hnf : f.kind ≠ .EndOfFile := by intro h; have := ha.kind; rw [h] at this; cases this
  refine wpP_call (pushNext_wp h3 ha.here hnf ⟨ha.hollow, .of_not (isFile_newline ha.kind)⟩) ?_
  rintro _ s4 ⟨h4, e4⟩
  have hl4 := len_skip ha.here e4
  rw [List.append_assoc] at h4
  refine wpP_mono (reduceClimb_wp hrec h4 (.get hk (fun k hk => (ha.all k hk).1) ha.kind) (by simp) (holds_closed rfl) (stopT_none ?_) (by omega)) ?_
  · simp only [List.nil_append, List.cons_append, lastPrec, hk]; rfl
  · rintro _ s5 ⟨n, hd, -⟩
    have := hd.len
    exact ⟨n, hd.of_le (by omega), by omega⟩

theorem integral1_wp {op1 : PrefixBinaryOp} {op2 : PrefixOp} {r : Cst} (hrec : RecOK U rec m)
    (h : On U F ((Prec.CLASS_INTEGRATIONOPERATORS, F.S.length) :: C) G (.tok t :: (tt ts ++ [r])) [] s)
    (hp : t.kind.prefixParselet = .integral op1 op2) (hts : Tr ts) (ho : Operand r)
    (hh : Holds Prec.CLASS_INTEGRATIONOPERATORS r) (hs : Stop U Prec.CLASS_INTEGRATIONOPERATORS G s.st r)
    (hm : 8 * s.len + 6 < m) :
    wpP U.E (integral1 U.env rec op1 op2) s (fun _ s' => ∃ n, Done U F C G n s s') := by
  refine wpP_call (currentToken_wp h) ?_
  rintro ⟨us, t1⟩ s1 ⟨h1, ha⟩
  have hl1 : s1.len ≤ s.len := ha.len h.wf
  refine wpP_ite (fun hd => ?_) (fun _ => ?_)
  · refine wpP_call (pushTrivia_wp' h1) ?_
    rintro _ s2 ⟨h2, e2⟩
    have hl2 : s2.len = s1.len := by unfold PS.len; rw [e2]
    have := rank_le (.prefix t1)
    refine wpP_call (prefix_wp hrec h2 (by rw [e2]; exact ha.ready) ha.stop (by omega)) ?_
    rintro _ s3 ⟨d, h3⟩
    have hl3 := h3.len
    have ho3 := h3.on
    have e : .tok t :: (tt ts ++ [r]) ++ tt us ++ [d] = .tok t :: (tt ts ++ r :: (tt us ++ [d])) := by simp
    rw [e] at ho3
    refine wpP_mono (reduceClimb_wp hrec ho3 (.integrate hp hts ho hh (ha.trivia fun _ h => h) h3.operand h3.holds) (by simp)
      (holds_closed rfl) ?_ (by omega)) ?_
    · rw [← e]
      refine stopT_node (fun q hq => ?_) h3.stop
      simp only [List.cons_append, lastPrec] at hq
      exact (Option.some.inj hq).symm
    · rintro _ s4 ⟨n, hd, -⟩
      exact ⟨n, hd.of_le (by omega)⟩
  · refine wpP_call (triviaReset_wp h h1 ha) ?_
    rintro _ s2 ⟨h2, hs2⟩
    have hl2 := SameAt.len hs2
    refine wpP_mono (reduceClimb_wp hrec h2 (.integral hp hts ho hh) (by simp) (holds_closed rfl) ?_ (by omega)) ?_
    · show StopT U G s2.st (.node (.prefix op2) ((.tok t :: tt ts) ++ [r]))
      refine stopT_node (fun q hq => ?_) (hs.congr hs2)
      simp only [List.cons_append, lastPrec, hp] at hq
      exact (Option.some.inj hq).symm
    · rintro _ s4 ⟨n, hd, -⟩
      exact ⟨n, hd.of_le (by omega)⟩

theorem integralPrefix_wp {op1 : PrefixBinaryOp} {op2 : PrefixOp} (hrec : RecOK U rec m) (h : On U F C G [] [] s)
    (hr : Ready U.env.cfg (gin G) s.st t) (hp : t.kind.prefixParselet = .integral op1 op2) (hm : 8 * s.len ≤ m) :
    wpP U.E (integralPrefix U.env rec op1 op2 t) s (fun _ s' => ∃ n, Done U F C G n s s' ∧ s'.len < s.len) := by
  have hne := hr.noEof (consuming_of hp rfl)
  refine wpP_call (pushNext_wp h hr.toHere hne (hr.at hne)) ?_
  rintro _ s1 ⟨h1, e1⟩
  have hl1 := len_skip_lt hr hne e1
  refine wpP_call (pushContext_wp _ h1) ?_
  rintro _ s2 ⟨h2, e2⟩
  have hl2 : s2.len = s1.len := by unfold PS.len; rw [e2]
  refine wpP_call (eatTrivia_wp h2) ?_
  rintro t3 s3 ⟨us, h3, ha⟩
  have hl3 : s3.len ≤ s2.len := ha.len h2.wf
  have hus : Tr us := ha.trivia fun _ h => h
  refine wpP_ite (fun _ => ?_) (fun _ => ?_)
  · refine wpP_call (pushHollow_wp .Fake_ImplicitOne rfl h3 ha.ready.toHere) ?_
    rintro _ s4 ⟨h4, e4⟩
    have hl4 : s4.len = s3.len := by unfold PS.len; rw [e4]
    rw [List.append_assoc] at h4
    refine wpP_mono (integral1_wp hrec h4 hp hus (operandKind_iff.mpr (show operandKind .Fake_ImplicitOne = true by decide)) holds_tok
      (.of_ends (ends_hollow rfl) (fun h => absurd h (by decide))) (by omega)) ?_
    rintro _ s5 ⟨n, hd⟩
    have := hd.len
    exact ⟨n, hd.of_le (by omega), by omega⟩
  · have := rank_le (.prefix t3)
    refine wpP_call (prefix_wp hrec h3 ha.ready ha.stop (by omega)) ?_
    rintro _ s4 ⟨r, h4⟩
    have hl4 := h4.len
    have ho4 := h4.on
    rw [List.append_assoc] at ho4
    refine wpP_mono (integral1_wp hrec ho4 hp hus h4.operand h4.holds h4.stop (by omega)) ?_
    rintro _ s5 ⟨n, hd⟩
    have := hd.len
    exact ⟨n, hd.of_le (by omega), by omega⟩

theorem blankOf_facts {b p : CompoundOp} {k : TK} (h : (match k with
    | .Under => b == .Blank && p == .CodeParser_PatternBlank
    | .UnderUnder => b == .BlankSequence && p == .CodeParser_PatternBlankSequence
    | .UnderUnderUnder => b == .BlankNullSequence && p == .CodeParser_PatternBlankNullSequence
    | _ => false) = true) : BlankOf k b := by
  split at h
  · simp at h; rw [h.1]; exact .one
  · simp at h; rw [h.1]; exact .two
  · simp at h; rw [h.1]; exact .three
  · cases h

theorem step_prefix (hrec : RecOK U rec (meas (.prefix t) s)) (hpre : Pre U F C G (.prefix t) X s) :
    wpP U.E (parsePrefix U.env rec t) s (fun _ s' => ∃ n, Done U F C G n s s' ∧ Extra U C G X s s' n (.prefix t)) := by
  obtain ⟨rfl, h, hr, ht⟩ := hpre
  have hf := prefix_facts t.kind (hr.kind.symm.imp KOK_real id) ht
  unfold prefixFacts at hf
  have hm : 8 * s.len ≤ meas (.prefix t) s := by unfold meas; omega
  have plain' : ∀ q, t.kind.prefixParselet = q → q ≠ .semiSemi → (∀ p op, q ≠ .op p op) → ∀ {P : P Unit},
      wpP U.E P s (fun _ s' => ∃ n, Done U F C G n s s' ∧ s'.len < s.len ∧ (q = .error ∨ q = .unsupported → Flawed n)) →
      wpP U.E P s (fun _ s' => ∃ n, Done U F C G n s s' ∧ Extra U C G [] s s' n (.prefix t)) := by
    intro q hq h1 h2 P hP
    refine wpP_mono hP ?_
    rintro _ s' ⟨n, hd, hl, h3⟩
    exact ⟨n, hd, extraP hl (by rw [hq]; exact h1) (by rw [hq]; exact h2) (by rw [hq]; exact h3)⟩
  have plain : ∀ q, t.kind.prefixParselet = q → q ≠ .semiSemi ∧ q ≠ .error ∧ q ≠ .unsupported → (∀ p op, q ≠ .op p op) → ∀ {P : P Unit},
      wpP U.E P s (fun _ s' => ∃ n, Done U F C G n s s' ∧ s'.len < s.len) →
      wpP U.E P s (fun _ s' => ∃ n, Done U F C G n s s' ∧ Extra U C G [] s s' n (.prefix t)) := by
    intro q hq h1 h2 P hP
    refine plain' q hq h1.1 h2 (wpP_mono hP ?_)
    rintro _ s' ⟨n, hd, hl⟩
    exact ⟨n, hd, hl, fun h => by rcases h with h | h; exacts [absurd h h1.2.1, absurd h h1.2.2]⟩
  have other : consuming t.kind = false → ∀ {P : P Unit},
      wpP U.E P s (fun _ s' => ∃ n, Done U F C G n s s' ∧ (topOf C = 0 → t.kind.isCloser = false → t.kind ≠ .EndOfFile → s'.len < s.len)) →
      wpP U.E P s (fun _ s' => ∃ n, Done U F C G n s s' ∧ Extra U C G [] s s' n (.prefix t)) := by
    intro hc P hP
    refine wpP_mono hP ?_
    rintro _ s' ⟨n, hd, hl⟩
    exact ⟨n, hd, extraP_none hc (notConsuming _ hc).1 (notConsuming _ hc).2 hl⟩
  have hm5 : consuming t.kind = false → 8 * s.len + 5 ≤ meas (.prefix t) s := by
    intro hc; simp [meas, Job.rank, hc]
  unfold parsePrefix
  cases hp : t.kind.prefixParselet with
  | leaf =>
    rw [hp] at hf
    exact plain _ hp (by simp) (by simp) (leafPrefix_wp hrec h hr (consuming_of hp rfl) hf hm)
  | underDot =>
    rw [hp] at hf
    exact plain _ hp (by simp) (by simp) (leafPrefix_wp hrec h hr (consuming_of hp rfl) hf hm)
  | error =>
    rw [hp] at hf
    simp only [Bool.and_eq_true] at hf
    refine plain' _ hp (by simp) (by simp) (wpP_mono (errorPrefix_wp h hr (consuming_of hp rfl) hf.1 hf.2) ?_)
    rintro _ s' ⟨n, hd, hl, hfl⟩
    exact ⟨n, hd, hl, fun _ => hfl⟩
  | unsupported =>
    refine plain' _ hp (by simp) (by simp) (wpP_mono (unsupportedPrefix_wp h hr (consuming_of hp rfl) ht) ?_)
    rintro _ s' ⟨n, hd, hl, hfl⟩
    exact ⟨n, hd, hl, fun _ => hfl⟩
  | symbol => exact plain _ hp (by simp) (by simp) (symbolPrefix_wp hrec h hr ((prefix_kinds _).1 hp) hm)
  | hash =>
    rw [hp] at hf
    have hk := (prefix_kinds _).2.1 hp
    exact plain _ hp (by simp) (by simp) (slotPrefix_wp hrec h hr (consuming_of hp rfl) hf
      (fun t2 h2 => .slot hk (h2.imp id And.right)) hm)
  | hashHash =>
    rw [hp] at hf
    have hk := (prefix_kinds _).2.2.1 hp
    exact plain _ hp (by simp) (by simp) (slotPrefix_wp hrec h hr (consuming_of hp rfl) hf
      (fun t2 h2 => .slotSequence hk (h2.resolve_right (by simp))) hm)
  | percent =>
    rw [hp] at hf
    have hk := (prefix_kinds _).2.2.2.1 hp
    exact plain _ hp (by simp) (by simp) (slotPrefix_wp hrec h hr (consuming_of hp rfl) hf
      (fun t2 h2 => .out hk (h2.resolve_right (by simp))) hm)
  | under b pb =>
    rw [hp] at hf
    simp only [Bool.and_eq_true] at hf
    exact plain _ hp (by simp) (by simp) (underPrefix_wp hrec h hr (consuming_of hp rfl) hf.1 (blankOf_facts hf.2) hm)
  | lessLess =>
    rw [hp] at hf
    exact plain _ hp (by simp) (by simp) (lessLessPrefix_wp hrec h hr (by simpa using hf) hm)
  | integral op1 op2 => exact plain _ hp (by simp) (by simp) (integralPrefix_wp hrec h hr hp hm)
  | group o op =>
    rw [hp] at hf
    simp only [Bool.and_eq_true, beq_iff_eq] at hf
    obtain ⟨rfl, hs⟩ := hf
    refine plain _ hp (by simp) (by simp) (wpP_mono (group_wp hrec h hr (Or.inl hp) hs (hr.noEof (consuming_of hp rfl)) hm) ?_)
    rintro _ s' ⟨n, h1, h2, -⟩
    exact ⟨n, h1, h2⟩
  | op p op =>
    refine wpP_mono (opPrefix_wp hrec h hr hp hm) ?_
    rintro _ s' ⟨n, hd, hl, hf⟩
    refine ⟨n, hd, fun h => ?_, fun _ => ⟨t, hf, rfl⟩, fun _ => hl, fun _ _ _ => hl, fun h => by (rw [hp] at h; simp at h)⟩
    have := (prefix_kinds _).2.2.2.2.1 h
    rw [hp] at this; cases this
  | semiSemi =>
    rw [hp] at hf
    simp only [Bool.and_eq_true, beq_iff_eq] at hf
    refine wpP_mono (semiSemiPrefix_wp hrec h hr hf.1 ?_) ?_
    · simp only [meas, Job.rank]
      rw [if_pos (consuming_of hp rfl)]; omega
    · rintro _ s' ⟨n, hd, hl, hf'⟩
      refine ⟨n, hd, fun _ => hf', fun h => ?_, fun _ => hl, fun _ _ _ => hl, fun h => by (rw [hp] at h; simp at h)⟩
      rw [hf.1] at h; cases h
  | closer =>
    rw [hp] at hf
    have hf : t.kind.isCloser = true := hf
    have hc : consuming t.kind = false := by unfold consuming; rw [hp]
    refine other hc (wpP_mono (closerPrefix_wp h hr hf) ?_)
    rintro _ s' ⟨n, hd⟩
    exact ⟨n, hd, fun _ h => by (rw [hf] at h; cases h)⟩
  | eof =>
    rw [hp] at hf
    have hc : consuming t.kind = false := by unfold consuming; rw [hp]
    refine other hc (wpP_mono (eofPrefix_wp h hr) ?_)
    rintro _ s' ⟨n, hd⟩
    exact ⟨n, hd, fun _ _ h => absurd (by simpa using hf) h⟩
  | comma =>
    have hc : consuming t.kind = false := by unfold consuming; rw [hp]
    refine other hc (wpP_mono (commaPrefix_wp hrec h hr hp (hm5 hc)) ?_)
    rintro _ s' ⟨n, hd, hl⟩
    exact ⟨n, hd, fun h _ _ => hl h⟩
  | unhandled =>
    have hc : consuming t.kind = false := by unfold consuming; rw [hp]
    refine other hc (wpP_mono (unhandledPrefix_wp hrec h hr hp ht (hm5 hc)) ?_)
    rintro _ s' ⟨n, hd, hl⟩
    exact ⟨n, hd, fun h _ _ => hl h⟩

/-! ### Climbing -/

/-- What is known after `processImplicitTimes`. -/
inductive Proc (t : Tok) (top : Nat) : Tok → Prop
  | same : t.kind.infixParselet ≠ .implicitTimes →
      (t.kind.infixParselet = .differentialD → top = Prec.CLASS_INTEGRATIONOPERATORS) → Proc t top t
  | fake : implicitKind t.kind = true → Proc t top (t.atStart .Fake_ImplicitTimes)

theorem process_wp {E : Err → Prop} {st : List Cst} (hst : s.stack = n :: st) (hn : n.isTrivia = false) :
    wpP E (processImplicitTimes t) s (fun t' s' => s' = s ∧ Proc t s.topPrec t') := by
  unfold wpP processImplicitTimes
  cases hk : t.kind.infixParselet with
  | implicitTimes => exact ⟨rfl, .fake (by unfold implicitKind; rw [hk])⟩
  | differentialD =>
    dsimp only
    split
    · rename_i h; exact ⟨rfl, .same (by rw [hk]; simp) fun _ => h⟩
    · exact ⟨rfl, .fake (by unfold implicitKind; rw [hk])⟩
  | semiSemi =>
    have : topNodeIsSpan s = .ok (isSpan n, s) := by
      unfold topNodeIsSpan
      rw [hst]
      simp [hn]
    dsimp only
    rw [this]
    dsimp only
    split
    · exact ⟨rfl, .fake (by unfold implicitKind; rw [hk])⟩
    · exact ⟨rfl, .same (by rw [hk]; simp) fun h => by (rw [hk] at h; cases h)⟩
  | _ => exact ⟨rfl, .same (by rw [hk]; simp) fun h => by (rw [hk] at h; cases h)⟩

theorem operand_notTrivia (h : Operand n) : n.isTrivia = false := by
  cases n with
  | tok t => exact h.1
  | _ => rfl

theorem Proc.notImplicit {t' : Tok} (h : Proc t top t') : t'.kind.infixParselet ≠ .implicitTimes := by
  cases h with
  | same h1 _ => exact h1
  | fake _ => exact InfixParselet.noConfusion

theorem Proc.keeps {t' : Tok} (h : Proc t top t') (hp : PrecOf t'.kind top p) {r : Nat} (hr : opPrec t.kind = some r)
    (hk : keeps q p) : Spec.keeps q r := by
  cases h with
  | same _ _ => rw [← hp.op r hr]; exact hk
  | fake hi =>
    have hp' : p = Prec.STAR := hp.op Prec.STAR rfl
    unfold implicitKind at hi
    split at hi
    · rename_i hq
      simp [opPrec, hq] at hr
      rw [← hr, ← hp']; exact hk
    · rename_i hq
      simp [opPrec, hq] at hr
    · rename_i hq
      simp [opPrec, hq] at hr
      refine keeps_mono hk ?_
      rw [← hr, hp']; decide
    · cases hi

/-- What `low_facts` says of one kind. -/
def lowFact (k : TK) : Bool :=
  match opPrec k with
  | some p => decide (3 ≤ p) || low Prec.COMMA k
  | none => k.infixParselet == .colon || k.infixParselet == .differentialD

theorem low_facts : ∀ k : TK, lowFact k = true := Props.forall_of_all (by decide +kernel)

theorem keeps_low (hk : Spec.keeps top p) (hc : top ≤ Prec.COMMA) : p ≤ 2 ∧ (p = 2 → top = 2) := by
  have hc : top ≤ 2 := hc
  unfold Spec.keeps at hk
  match top, hc with
  | 0, _ => exact ⟨Nat.le_of_lt_succ (Nat.lt_of_lt_of_le hk (by decide)), fun h => by rw [h] at hk; exact absurd hk (by decide)⟩
  | 1, _ => exact ⟨Nat.le_of_lt_succ (Nat.lt_of_lt_of_le hk (by decide)), fun h => by rw [h] at hk; exact absurd hk (by decide)⟩
  | 2, _ => exact ⟨Nat.le_of_lt_succ (Nat.lt_of_lt_of_le hk (by decide)), fun _ => rfl⟩

theorem Proc.low {t' : Tok} (h : Proc t top t') (hp : PrecOf t'.kind top p) (hk : Spec.keeps top p) (hc : top ≤ Prec.COMMA) :
    low top t.kind = true := by
  obtain ⟨h2, h3⟩ := keeps_low hk hc
  cases h with
  | same h1 hd =>
    have hf := low_facts t.kind
    unfold lowFact at hf
    split at hf
    · rename_i q hq
      obtain rfl := hp.op q hq
      have h4 : ¬ 3 ≤ p := by omega
      simp only [h4, decide_false, Bool.false_or] at hf
      unfold CodeParser.low at hf ⊢
      cases hi : t.kind.infixParselet <;> rw [hi] at hf <;> first | rfl | cases hf | skip
      obtain rfl : p = 2 := by simp only [opPrec, hi] at hq; exact (Option.some.inj hq).symm
      rw [h3 rfl]; decide
    · simp only [Bool.or_eq_true, beq_iff_eq] at hf
      rcases hf with hf | hf
      · have := hp.colon hf; omega
      · rw [hd hf] at hc; exact absurd hc (by decide)
  | fake hi =>
    have hp' : p = Prec.STAR := hp.op Prec.STAR rfl
    rw [hp'] at h2; exact absurd h2 (by decide)

theorem Ate.of_ready {pr : TK → Bool} {g : Bool} (ha : Ate cfg g pr u ts t v) (hr : Ready cfg g u k) (hp : pr k.kind = false) :
    ts = [] ∧ t = k := by
  obtain ⟨a, b, h1, h2⟩ := hr.peek
  obtain ⟨h3, h4, -⟩ := (Eats.stop (p := pr) h2 hp).unique ha.eats h1
  exact ⟨h3.symm, h4.symm⟩

theorem comma_facts : ∀ k : TK, k.prefixParselet = .comma → k.isTriviaButNotToplevelNewline = false ∧ implicitKind k = false ∧
    opPrec k = some Prec.COMMA :=
  Props.forall_of_all (by decide +kernel)

theorem step_climb (hrec : RecOK U rec (meas .climb s)) (hpre : Pre U F C G .climb X s) :
    wpP U.E (climb U.env rec) s (fun _ s' => ∃ n, Done U F C G n s s' ∧ Extra U C G X s s' n .climb) := by
  obtain ⟨n, rfl, h, ho, hh, hst⟩ := hpre
  refine wpP_call (currentTokenNTN_wp h) ?_
  rintro ⟨ts, t⟩ s1 ⟨h1, ha⟩
  have hl1 : s1.len ≤ s.len := ha.len h.wf
  refine wpP_call (process_wp h1.stack (operand_notTrivia ho)) ?_
  rintro t' s1' ⟨rfl, hproc⟩
  rw [topPrec_eq h1] at hproc
  unfold climbRest
  refine wpP_call (infixPrec_wp hproc.notImplicit) ?_
  rintro p s2 ⟨rfl, hp⟩
  refine wpP_get ?_
  rw [topPrec_eq h1] at hp ⊢
  refine wpP_ite (fun hg => ?_) (fun hg => ?_)
  · rw [precGreater_iff] at hg
    refine wpP_mono (triviaReset_wp h h1 ha) ?_
    rintro _ s3 ⟨h3, hs3⟩
    refine ⟨n, ⟨h3, ho, hh, ?_, Nat.le_of_eq (SameAt.len hs3)⟩, rfl, fun _ => rfl, ?_⟩
    · refine ⟨?_, fun hc => Or.inr fun us t1 hah => ?_⟩
      · intro he us t1 hah r hr
        refine ⟨?_, hst.congr hs3 he us t1 hah r hr⟩
        obtain ⟨-, rfl⟩ := (hah.congr hs3.symm).unique (.of_ntn ha)
        exact hproc.keeps hp hr hg
      · obtain ⟨-, rfl⟩ := (hah.congr hs3.symm).unique (.of_ntn ha)
        exact hproc.low hp hg hc
    · intro h0 t0 hr0 hc
      obtain ⟨hc1, hc2, hc3⟩ := comma_facts _ hc
      obtain ⟨-, rfl⟩ := ha.of_ready hr0 hc1
      have := hproc.keeps hp hc3 hg
      rw [h0] at this
      exact absurd this (by unfold keeps; decide)
  · rw [precGreater_iff] at hg
    refine wpP_call (pushContext_wp p h1) ?_
    rintro _ s3 ⟨h3, e3⟩
    refine wpP_call (pushTrivia_wp' h3) ?_
    rintro _ s4 ⟨h4, e4⟩
    have hl4 : s4.len ≤ s.len := by
      have : s4.len = s2.len := by unfold PS.len; rw [e4, e3]
      omega
    have hne : t.kind ≠ .EndOfFile := by
      intro he
      cases hproc with
      | same _ _ => exact hg (by rw [hp.op 0 (by rw [he]; rfl)]; exact keeps_zero)
      | fake hi => rw [he] at hi; cases hi
    have htr : t.kind.isTrivia = false := by
      have h1 := real_NTN t.kind (ha.ready.real hne)
      have h2 := ha.stop
      cases hq : t.kind.isTrivia with
      | false => rfl
      | true =>
        exfalso
        have hnl : t.kind = .ToplevelNewline := by
          by_contra hnn; rw [h1 hq hnn] at h2; cases h2
        cases hproc with
        | same _ _ => exact hg (by rw [hp.op 0 (by rw [hnl]; rfl)]; exact keeps_zero)
        | fake hi => rw [hnl] at hi; cases hi
    have hsrc : Src U G s4.st t t' := by
      have hr4 : Ready U.env.cfg (gin G) s4.st t := by rw [e4, e3]; exact ha.ready
      cases hproc with
      | same h1 h2 => exact .real hr4 (infixReal_of hp hg h1 h2) ha.ready.notFake
      | fake hi => exact .fake hr4 htr hi
    refine wpP_mono (hrec (.infix t') F C G _ s4 ⟨p, n, ts, t, rfl, h4, ho, hh, ha.trivia isNTN_trivia, Or.inr hg, hp.op, hsrc,
      hst.yields (.of_ntn ha)⟩ ?_) ?_
    · simp only [meas, Job.rank]
      split <;> omega
    · rintro _ s5 ⟨n', hd, hf, hlt⟩
      refine ⟨n', hd.of_le hl4, hf, fun hH => ?_, fun _ _ _ _ => by omega⟩
      refine absurd ?_ hg
      rw [hH]
      exact Nat.lt_of_lt_of_le hp.lt (by decide)

end
end CodeParser
