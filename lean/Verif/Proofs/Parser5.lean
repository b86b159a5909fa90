import Verif.Proofs.Parser4
/-!
The parser: infix parselets (helper lemmas).
-/
namespace CodeParser
open Spec Cst

section
variable {U : Setup} {F : Fr} {C C' : List (Nat × Nat)} {G G' : List Closer} {X Y Z : List Cst} {s s' s1 : PS}
  {k t o t0 : Tok} {ts us vs ws : List Tok} {n l x r : Cst} {p p' q top : Nat} {u v : St} {rec : Job → P Unit} {m : Nat}

/-! ### Going back -/

theorem triviaReset_wp' {E : Err → Prop} {pr : TK → Bool} {g : Bool} (h : On U F C G X Z s)
    (h' : On U F C' G X (Z ++ tt ts) s') (ha : Ate U.env.cfg g pr s.st ts t u) (hs : SameAt u s'.st)
    (hR : R U.env.cfg s.st s'.st) :
    wpP E (triviaReset ts) s' (fun _ s'' => On U F C' G X Z s'' ∧ SameAt s.st s''.st ∧ R U.env.cfg s.st s''.st) := by
  cases ts with
  | nil => exact ⟨by simpa [tt] using h', (ha.eats.same h.wf).trans hs, hR⟩
  | cons k ts =>
    have := ha.lies.head
    obtain ⟨h1, h2⟩ := reset_wp (E := E) h h' hR this.1 this.2
    refine ⟨h1, h2, ?_⟩
    have e : ({ s'.st with rest := k.text ++ k.after, loc := k.start } : St) = s'.st.seek s.st := by
      unfold St.seek; rw [this.1, this.2, h.eof, ← h'.eof]
    show R U.env.cfg s.st { s'.st with rest := k.text ++ k.after, loc := k.start }
    rw [e]
    exact R.seek h.wf (R.refl h.wf) hR

theorem possible_kinds : ∀ k : TK, k.real = true → k.isPossibleBeginning = true → k.isTrivia = false :=
  Props.forall_of_all (by decide +kernel)

theorem possible_eof : TK.isPossibleBeginning .EndOfFile = false := by decide

theorem implicit_nontrivia : ∀ k : TK, k.real = true → implicitKind k = true → k.isTrivia = false :=
  Props.forall_of_all (by decide +kernel)

/-! ### The operator -/

/-- What is known once the operator has been pushed. -/
structure Opened (U : Setup) (F : Fr) (C : List (Nat × Nat)) (G : List Closer) (p : Nat) (l : Cst) (ts : List Tok)
    (t : Tok) (s s1 : PS) : Prop where
  on : On U F ((p, F.S.length) :: C) G (l :: (tt ts ++ [.tok t])) [] s1
  len : s1.len < s.len
  head : Head (topOf C) p (l :: (tt ts ++ [.tok t]))
  operand : Operand l
  trivia : Tr ts
  yields : Yields l ts (opPrec t.kind)
  ntriv : t.kind.isTrivia = false

theorem open_wp {E : Err → Prop} (h : PreInfix U F C G p l ts t0 t s) (hf : t.kind ≠ .Fake_ImplicitTimes) :
    wpP E (pushNext t) s (fun _ s1 => Opened U F C G p l ts t s s1) := by
  have hs := h.src
  cases hs with
  | fake _ _ _ => exact absurd rfl hf
  | real hr hi _ =>
    have hk := (infix_kinds t.kind).2.2.2.2.1 hi
    refine wpP_mono (pushNext_wp h.on hr.toHere hk.2 (hr.at hk.2)) ?_
    rintro _ s1 ⟨h1, e1⟩
    exact ⟨h1, len_skip_lt hr hk.2 e1, .mk h.trivia hk.1 h.prec h.holds (h.tight.imp And.left id), h.operand, h.trivia,
      h.yields, hk.1⟩

theorem lastPrec_of (hts : Tr ts) (ht : t.kind.isTrivia = false) : opAfter (tt ts ++ .tok t :: Y) = some t := opAfter_tt hts ht

/-- The end of an infix parselet with a last operand. -/
theorem finish_wp {k : NodeKind} (hrec : RecOK U rec m) (h : On U F ((p', F.S.length) :: C) G (X ++ (tt us ++ [r])) [] s)
    (hH : Head (topOf C) q X) (hn : NodeOK U.ρ k (X ++ (tt us ++ [r])))
    (hl : ∀ q, lastPrec k (X ++ (tt us ++ [r])) = some q → q = p) (hs : Stop U p G s.st r) (hm : 8 * s.len + 4 < m)
    (hb : k.bracket = false := by rfl) :
    wpP U.E (reduceClimb rec k) s (fun _ s' => ∃ n', Done U F C G n' s s' ∧ first n' = firstL X) := by
  have hx : X ≠ [] := by obtain ⟨l, rest, o, rfl, -⟩ := hH; simp
  refine wpP_mono (reduceClimb_wp hrec h hn (by simp) hH.append.holds ?_ hm hb) ?_
  · have := stopT_node (k := k) (X := X ++ tt us) (by rw [List.append_assoc]; exact hl) hs
    rwa [List.append_assoc] at this
  · rintro _ s' ⟨n', hd, hf⟩
    exact ⟨n', hd, hf.trans (firstL_append hx)⟩

theorem lastPrec_binary {op : BinaryOp} (hb : BinaryOf t.kind op q) (hts : Tr ts) (ht : t.kind.isTrivia = false)
    (h : lastPrec (.binary op) (l :: (tt ts ++ .tok t :: Y)) = some p) : p = q := by
  have ho := opAfter_tt (X := Y) hts ht
  unfold lastPrec at h
  simp only [ho, Option.bind_some] at h
  cases hb with
  | table hk =>
    have hf := infix_facts t.kind
    unfold infixFacts at hf
    rw [hk] at hf
    simp only [Bool.and_eq_true, bne_iff_ne, ne_eq] at hf
    split at h
    · exact absurd rfl hf.1.1
    · exact absurd rfl hf.1.2
    · cases h
    · cases h
    · cases h
    · simp only [opPrec, hk] at h
      exact (Option.some.inj h).symm
  | set hk => simp only [opPrec, hk] at h; exact (Option.some.inj h).symm
  | setDelayed hk => simp only [opPrec, hk] at h; exact (Option.some.inj h).symm
  | pattern hk => exact (Option.some.inj h).symm
  | optional hk => exact (Option.some.inj h).symm
  | span hk => simp only [opPrec, hk] at h; exact (Option.some.inj h).symm

/-- The end of a binary node. -/
theorem binary_wp {op : BinaryOp} (hrec : RecOK U rec m) {s0 : PS} (ho : Opened U F C G p l ts t s0 s1)
    (hb : BinaryOf t.kind op q) (h : On U F ((p', F.S.length) :: C) G (l :: (tt ts ++ [.tok t]) ++ (tt us ++ [r])) [] s)
    (hus : Tr us) (hr : Operand r) (hh : Holds q r) (hs : Stop U q G s.st r) (hm : 8 * s.len + 4 < m) :
    wpP U.E (reduceClimb rec (.binary op)) s (fun _ s' => ∃ n', Done U F C G n' s s' ∧ first n' = first l) := by
  have e : l :: (tt ts ++ [.tok t]) ++ (tt us ++ [r]) = l :: (tt ts ++ .tok t :: (tt us ++ [r])) := by simp
  refine finish_wp hrec h ho.head ?_ ?_ hs hm
  · rw [e]
    exact .binary hb ho.operand ho.trivia hus hr ho.yields hh
  · rw [e]
    exact fun q' hq => lastPrec_binary hb ho.trivia ho.ntriv hq

/-- The result of an infix parselet. -/
abbrev InfixPost (U : Setup) (F : Fr) (C : List (Nat × Nat)) (G : List Closer) (l : Cst) (s s' : PS) : Prop :=
  ∃ n, Done U F C G n s s' ∧ first n = first l ∧ s'.len < s.len

theorem infixPost {P : P Unit} (hl : s1.len < s.len)
    (h : wpP U.E P s1 (fun _ s' => ∃ n', Done U F C G n' s1 s' ∧ first n' = first l)) :
    wpP U.E P s1 (fun _ s' => InfixPost U F C G l s s') := by
  refine wpP_mono h ?_
  rintro _ s' ⟨n, hd, hf⟩
  have := hd.len
  exact ⟨n, hd.of_le (by omega), hf, by omega⟩

theorem binaryInfix_wp {op : BinaryOp} (hrec : RecOK U rec m) (h : PreInfix U F C G p l ts t0 t s)
    (hf : t.kind ≠ .Fake_ImplicitTimes) (hb : BinaryOf t.kind op p) (hm : 8 * s.len ≤ m) :
    wpP U.E (binaryInfix U.env rec op t) s (fun _ s' => InfixPost U F C G l s s') := by
  refine wpP_call (open_wp h hf) ?_
  rintro _ s1 ho
  have hl1 := ho.len
  refine wpP_call (operand_wp' hrec ho.on (by omega)) ?_
  rintro _ s2 ⟨us, t2, r, h2⟩
  have hl2 := h2.len
  exact infixPost (by omega) (binary_wp hrec ho hb h2.on h2.trivia h2.operand h2.holds h2.stop (by omega))

theorem postfixInfix_wp {op : PostfixOp} (hrec : RecOK U rec m) (h : PreInfix U F C G p l ts t0 t s)
    (hf : t.kind ≠ .Fake_ImplicitTimes) (hp : t.kind.infixParselet = .postfix q op) (hm : 8 * s.len ≤ m) :
    wpP U.E (postfixInfix rec op t) s (fun _ s' => InfixPost U F C G l s s') := by
  refine wpP_call (open_wp h hf) ?_
  rintro _ s1 ho
  have hl1 := ho.len
  have hy := ho.yields
  rw [show opPrec t.kind = some q by simp [opPrec, hp]] at hy
  exact infixPost hl1 (reduceClimb_wp hrec ho.on (.postfix hp ho.operand ho.trivia hy) (by simp) ho.head.holds (stopT_none rfl) (by omega))

theorem put_kinds : ∀ k : TK, k.infixParselet = .greaterGreater ∨ k.infixParselet = .greaterGreaterGreater → isFileOp k = true :=
  Props.forall_of_all (by decide +kernel)

theorem _root_.CodeParser.Spec.PutOf.fileOp {k : TK} {op : BinaryOp} (h : PutOf k op) : isFileOp k = true := by
  cases h with
  | put h => exact put_kinds k (Or.inl h)
  | putAppend h => exact put_kinds k (Or.inr h)

theorem putInfix_wp {op : BinaryOp} (hrec : RecOK U rec m) (h : PreInfix U F C G p l ts t0 t s)
    (hf : t.kind ≠ .Fake_ImplicitTimes) (hp : PutOf t.kind op) (hm : 8 * s.len ≤ m) :
    wpP U.E (putInfix U.env rec op t) s (fun _ s' => InfixPost U F C G l s s') := by
  refine wpP_call (open_wp h hf) ?_
  rintro _ s1 ho
  have hl1 := ho.len
  refine wpP_call (eatTriviaFile_wp ho.on ⟨t, by simp [leavesL, leavesL_append, leaves], hp.fileOp⟩) ?_
  rintro f s3 ⟨us, h3, ha⟩
  have hl3 : s3.len ≤ s1.len := ha.reach.len ho.on.wf
  have hnf : f.kind ≠ .EndOfFile := by intro h; have := ha.kind; rw [h] at this; cases this
  refine wpP_call (pushNext_wp h3 ha.here hnf ⟨ha.hollow, .of_not (isFile_newline ha.kind)⟩) ?_
  rintro _ s4 ⟨h4, e4⟩
  have hl4 := len_skip ha.here e4
  rw [List.append_assoc] at h4
  have e : l :: (tt ts ++ [.tok t]) ++ (tt us ++ [.tok f]) = l :: (tt ts ++ .tok t :: (tt us ++ [.tok f])) := by simp
  refine infixPost (by omega) (reduceClimb_wp hrec h4 ?_ (by simp) ho.head.append.holds (stopT_none ?_) (by omega))
  · rw [e]
    exact .put hp ho.operand ho.trivia (fun k hk => (ha.all k hk).1) ha.kind ho.yields
  · generalize t.kind = k at hp
    cases hp <;> rfl

theorem tildeInfix_wp (hrec : RecOK U rec m) (h : PreInfix U F C G p l ts t0 t s)
    (hk : t.kind = .Tilde) (hm : 8 * s.len ≤ m) :
    wpP U.E (tildeInfix U.env rec t) s (fun _ s' => InfixPost U F C G l s s') := by
  obtain rfl : p = Prec.TILDE := h.prec _ (by rw [hk]; rfl)
  refine wpP_call (open_wp h (by rw [hk]; decide)) ?_
  rintro _ s1 ho
  have hl1 := ho.len
  refine wpP_call (operand_wp' hrec ho.on (by omega)) ?_
  rintro _ s2 ⟨us, t2, m', h2⟩
  have hl2 := h2.len
  refine infixPost (by omega) ?_
  refine wpP_call (currentToken_wp h2.on) ?_
  rintro ⟨vs, t3⟩ s3 ⟨h3, ha⟩
  have hl3 : s3.len ≤ s2.len := ha.len h2.on.wf
  refine wpP_ite (fun hk3 => ?_) (fun _ => ?_)
  · have hne : t3.kind ≠ .EndOfFile := by rw [hk3]; decide
    refine wpP_call (commitNext_wp (ts := vs) h3 ha.ready.toHere hne (ha.ready.at hne)) ?_
    rintro _ s4 ⟨h4, e4⟩
    have hl4 := len_skip_lt ha.ready hne e4
    refine wpP_call (operand_wp' hrec h4 (by omega)) ?_
    rintro _ s5 ⟨ws, t5, r, h5⟩
    have hl5 := h5.len
    have e : l :: (tt ts ++ [.tok t]) ++ (tt us ++ [m']) ++ (tt vs ++ [.tok t3]) ++ (tt ws ++ [r]) =
      l :: (tt ts ++ .tok t :: (tt us ++ m' :: (tt vs ++ .tok t3 :: (tt ws ++ [r])))) := by simp
    refine wpP_mono (finish_wp hrec h5.on ho.head.append.append ?_ ?_ h5.stop (by omega)) ?_
    · rw [e]
      exact .ternary (by rw [hk, hk3]; exact .tilde) ho.operand ho.trivia h2.trivia h2.operand (ha.trivia fun _ h => h) h5.trivia
        h5.operand ho.yields h2.holds (h2.stop.T.yields' ha) h5.holds
    · intro q hq; exact (Option.some.inj hq).symm
    · rintro _ s6 ⟨n, hd, hf⟩
      exact ⟨n, hd.of_le (by omega), hf⟩
  · refine wpP_call (triviaReset_wp h2.on h3 ha) ?_
    rintro _ s4 ⟨h4, hs4⟩
    have hl4 := SameAt.len hs4
    have e : l :: (tt ts ++ [.tok t]) ++ (tt us ++ [m']) = l :: (tt ts ++ .tok t :: (tt us ++ [m'])) := by simp
    refine wpP_mono (finish_wp hrec h4 ho.head ?_ ?_ (h2.stop.congr hs4) (by omega)) ?_
    · rw [e]
      exact .error (by rw [hk]; exact .tilde) ho.operand ho.trivia h2.trivia h2.operand ho.yields h2.holds
    · intro q hq; exact (Option.some.inj hq).symm
    · rintro _ s6 ⟨n, hd, hf⟩
      exact ⟨n, hd.of_le (by omega), hf⟩

theorem colonLhs_ok (h : Operand l) : ∃ c, colonLhsOf l = .ok c := by
  unfold colonLhsOf
  split
  · exact ⟨_, rfl⟩
  · split <;> exact ⟨_, rfl⟩
  · split
    · exact ⟨_, rfl⟩
    · exact ⟨_, rfl⟩
    · exact ⟨_, rfl⟩
    · exact ⟨_, rfl⟩
    · rename_i hk; exact absurd hk h.2.2.1
    · exact ⟨_, rfl⟩
  · exact ⟨_, rfl⟩

theorem find_proper (hts : Tr ts) (hl : l.isTrivia = false) {S : List Cst} :
    ((l :: tt ts).reverse ++ S).find? (fun c => !c.isTrivia) = some l := by
  rw [List.reverse_cons, List.append_assoc, List.find?_append]
  have : (tt ts).reverse.find? (fun c => !c.isTrivia) = none := by
    rw [List.find?_eq_none]
    intro c hc
    simp [tt] at hc
    obtain ⟨t, ht, rfl⟩ := hc
    simp [isTrivia, hts t ht]
  rw [this]
  simp [hl]

theorem checkColonLhs_wp {E : Err → Prop} (h : On U F C G (l :: tt ts) [] s) (hl : Operand l) (hts : Tr ts) :
    wpP E checkColonLhs s (fun _ s' => s' = s) := by
  obtain ⟨c, hc⟩ := colonLhs_ok hl
  unfold wpP checkColonLhs
  rw [h.stack, find_proper hts (operand_notTrivia hl)]
  simp [hc]

theorem colonInfix_wp (hrec : RecOK U rec m) (h : PreInfix U F C G p l ts t0 t s)
    (hk : t.kind = .Colon) (hm : 8 * s.len ≤ m) :
    wpP U.E (colonInfix U.env rec t) s (fun _ s' => InfixPost U F C G l s s') := by
  have hi : t.kind.infixParselet = .colon := by rw [hk]; rfl
  refine wpP_call (checkColonLhs_wp h.on h.operand h.trivia) ?_
  rintro lhs _ rfl
  refine wpP_call (open_wp h (by rw [hk]; decide)) ?_
  rintro _ s1 ho
  have hl1 := ho.len
  refine wpP_call (eatTrivia_wp ho.on) ?_
  rintro t2 s2 ⟨us, h2, ha⟩
  have hl2 : s2.len ≤ s1.len := ha.len ho.on.wf
  refine infixPost (by omega) ?_
  have key : ∀ prec, wpP U.E (do setPrecedence prec; rec (.prefix t2)) s2 (fun _ s3 => ∃ r,
      On U F ((prec, F.S.length) :: C) G (l :: (tt ts ++ [.tok t]) ++ (tt us ++ [r])) [] s3 ∧ Operand r ∧ Holds prec r ∧
      Stop U prec G s3.st r ∧ s3.len ≤ s2.len) := by
    intro prec
    refine wpP_call (setPrecedence_wp prec h2) ?_
    rintro _ s3 ⟨h3, e3⟩
    have hl3 : s3.len = s2.len := by unfold PS.len; rw [e3]
    have := rank_le (.prefix t2)
    refine wpP_mono (prefix_wp hrec h3 (by rw [e3]; exact ha.ready) ha.stop (by omega)) ?_
    rintro _ s4 ⟨r, hr⟩
    have hl4 := hr.len
    exact ⟨r, by rw [← List.append_assoc]; exact hr.on, hr.operand, hr.holds, hr.stop, by omega⟩
  have hus : Tr us := ha.trivia fun _ h => h
  have fin : ∀ {prec : Nat} {k : NodeKind}, (∀ s3 r,
      On U F ((prec, F.S.length) :: C) G (l :: (tt ts ++ [.tok t]) ++ (tt us ++ [r])) [] s3 → Operand r → Holds prec r →
      Stop U prec G s3.st r → s3.len ≤ s2.len →
      wpP U.E (reduceClimb rec k) s3 (fun _ s' => ∃ n', Done U F C G n' s3 s' ∧ first n' = first l)) →
      wpP U.E (do setPrecedence prec; rec (.prefix t2); reduceClimb rec k) s2 (fun _ s' => ∃ n', Done U F C G n' s2 s' ∧ first n' = first l) := by
    intro prec k hk
    have : (do setPrecedence prec; rec (.prefix t2); reduceClimb rec k : P Unit) =
      (do (do setPrecedence prec; rec (.prefix t2)); reduceClimb rec k) := by
      funext s
      show P.bind _ _ s = P.bind (P.bind _ _) _ s
      unfold P.bind
      cases setPrecedence prec s <;> rfl
    rw [this]
    refine wpP_call (key prec) ?_
    rintro _ s3 ⟨r, h3, h4, h5, h6, h7⟩
    refine wpP_mono (hk s3 r h3 h4 h5 h6 h7) ?_
    rintro _ s' ⟨n, hd, hf⟩
    exact ⟨n, hd.of_le h7, hf⟩
  unfold colonRest
  cases lhs with
  | pattern => exact fin fun s3 r h3 h4 h5 h6 h7 => binary_wp hrec ho (.pattern hi) h3 hus h4 h5 h6 (by omega)
  | optional => exact fin fun s3 r h3 h4 h5 h6 h7 => binary_wp hrec ho (.optional hi) h3 hus h4 h5 h6 (by omega)
  | error =>
    refine fin fun s3 r h3 h4 h5 h6 h7 => ?_
    have e : l :: (tt ts ++ [.tok t]) ++ (tt us ++ [r]) = l :: (tt ts ++ .tok t :: (tt us ++ [r])) := by simp
    refine finish_wp hrec h3 ho.head ?_ ?_ h6 (by omega)
    · rw [e]
      exact .error (by rw [hk]; exact .symbol) ho.operand ho.trivia hus h4 ho.yields h5
    · intro q hq; exact (Option.some.inj hq).symm

theorem equalRest_wp {unset set : NodeKind} (hrec : RecOK U rec m) (h : On U F ((Prec.EQUAL, F.S.length) :: C) G X [] s)
    (hH : Head (topOf C) p X)
    (h1 : ∀ us d, Tr us → d.kind = .Dot → NodeOK U.ρ unset (X ++ (tt us ++ [.tok d])))
    (h2 : ∀ Y, lastPrec unset (X ++ Y) = none)
    (h3 : ∀ us r, Tr us → Operand r → Holds Prec.EQUAL r → NodeOK U.ρ set (X ++ (tt us ++ [r])))
    (h4 : ∀ Y q, lastPrec set (X ++ Y) = some q → q = Prec.EQUAL) (hm : 8 * s.len + 6 < m)
    (hb1 : unset.bracket = false := by rfl) (hb2 : set.bracket = false := by rfl) :
    wpP U.E (equalRest U.env rec unset set) s (fun _ s' => ∃ n', Done U F C G n' s s' ∧ first n' = firstL X) := by
  refine wpP_call (eatTrivia_wp h) ?_
  rintro t2 s2 ⟨us, g2, ha⟩
  have hl2 : s2.len ≤ s.len := ha.len h.wf
  have hus : Tr us := ha.trivia fun _ h => h
  refine wpP_ite (fun hd => ?_) (fun _ => ?_)
  · have hne : t2.kind ≠ .EndOfFile := by rw [hd]; decide
    refine wpP_call (pushNext_wp g2 ha.ready.toHere hne (ha.ready.at hne)) ?_
    rintro _ s3 ⟨g3, e3⟩
    have hl3 := len_skip_lt ha.ready hne e3
    rw [List.append_assoc] at g3
    have hx : X ≠ [] := by obtain ⟨l, rest, o, rfl, -⟩ := hH; simp
    refine wpP_mono (reduceClimb_wp hrec g3 (h1 us t2 hus hd) (by simp) hH.append.holds (stopT_none (h2 _)) (by omega) hb1) ?_
    rintro _ s' ⟨n, hd, hf⟩
    exact ⟨n, hd.of_le (by omega), hf.trans (firstL_append hx)⟩
  · have := rank_le (.prefix t2)
    refine wpP_call (prefix_wp hrec g2 ha.ready ha.stop (by omega)) ?_
    rintro _ s3 ⟨r, hr⟩
    have hl3 := hr.len
    have g3 := hr.on
    rw [List.append_assoc] at g3
    refine wpP_mono (finish_wp hrec g3 hH (h3 us r hus hr.operand hr.holds) (h4 _) hr.stop (by omega) hb2) ?_
    rintro _ s' ⟨n, hd, hf⟩
    exact ⟨n, hd.of_le (by omega), hf⟩

theorem equalInfix_wp (hrec : RecOK U rec m) (h : PreInfix U F C G p l ts t0 t s) (hf : t.kind ≠ .Fake_ImplicitTimes)
    (hk : t.kind.infixParselet = .equal) (hm : 8 * s.len ≤ m) :
    wpP U.E (equalInfix U.env rec t) s (fun _ s' => InfixPost U F C G l s s') := by
  obtain rfl : p = Prec.EQUAL := h.prec _ (by simp [opPrec, hk])
  refine wpP_call (open_wp h hf) ?_
  rintro _ s1 ho
  have hl1 := ho.len
  have e : ∀ Y, l :: (tt ts ++ [.tok t]) ++ Y = l :: (tt ts ++ .tok t :: Y) := by simp
  refine infixPost (by omega) (equalRest_wp hrec ho.on ho.head ?_ ?_ ?_ ?_ (by omega))
  · intro us d hus hd
    rw [e]; exact .unset hk ho.operand ho.trivia hus hd ho.yields
  · intro Y; rfl
  · intro us r hus hr hh
    rw [e]; exact .binary (.set hk) ho.operand ho.trivia hus hr ho.yields hh
  · intro Y q hq
    rw [e] at hq
    exact lastPrec_binary (.set hk) ho.trivia ho.ntriv hq

theorem slashColonInfix_wp (hrec : RecOK U rec m) (h : PreInfix U F C G p l ts t0 t s)
    (hk : t.kind = .SlashColon) (hm : 8 * s.len ≤ m) :
    wpP U.E (slashColonInfix U.env rec t) s (fun _ s' => InfixPost U F C G l s s') := by
  obtain rfl : p = Prec.SLASHCOLON := h.prec _ (by rw [hk]; rfl)
  refine wpP_call (open_wp h (by rw [hk]; decide)) ?_
  rintro _ s1 ho
  have hl1 := ho.len
  refine wpP_call (operand_wp' hrec ho.on (by omega)) ?_
  rintro _ s2 ⟨us, t2, m', h2⟩
  have hl2 := h2.len
  refine infixPost (by omega) ?_
  refine wpP_call (currentToken_wp h2.on) ?_
  rintro ⟨vs, t3⟩ s3 ⟨h3, ha⟩
  have hl3 : s3.len ≤ s2.len := ha.len h2.on.wf
  have hvs : Tr vs := ha.trivia fun _ h => h
  have e : ∀ Y, l :: (tt ts ++ [.tok t]) ++ (tt us ++ [m']) ++ (tt vs ++ [.tok t3]) ++ Y =
      l :: (tt ts ++ .tok t :: (tt us ++ m' :: (tt vs ++ .tok t3 :: Y))) := by simp
  refine wpP_ite (fun hk3 => ?_) (fun _ => wpP_ite (fun hk3 => ?_) (fun _ => ?_))
  · have hne : t3.kind ≠ .EndOfFile := by rw [hk3]; decide
    refine wpP_call (setPrecedence_wp Prec.EQUAL h3) ?_
    rintro _ s4 ⟨h4, e4⟩
    refine wpP_call (commitNext_wp (ts := vs) h4 (by rw [e4]; exact ha.ready.toHere) hne (ha.ready.at hne)) ?_
    rintro _ s5 ⟨h5, e5⟩
    have hl5 : s5.len < s3.len := len_skip_lt ha.ready hne (by rw [e5, e4])
    refine wpP_mono (equalRest_wp hrec h5 ho.head.append.append ?_ ?_ ?_ ?_ (by omega)) ?_
    · intro ws d hws hd
      rw [e]
      exact .tagUnset hk hk3 ho.operand ho.trivia h2.trivia h2.operand hvs hws hd ho.yields h2.holds (h2.stop.T.yields' ha)
    · intro Y; rfl
    · intro ws r hws hr hh
      rw [e]
      exact .ternary (by rw [hk, hk3]; exact .tagSet) ho.operand ho.trivia h2.trivia h2.operand hvs hws hr ho.yields h2.holds
        (h2.stop.T.yields' ha) hh
    · intro Y q hq; exact (Option.some.inj hq).symm
    · rintro _ s6 ⟨n, hd, hf⟩
      exact ⟨n, hd.of_le (by omega), hf⟩
  · have hne : t3.kind ≠ .EndOfFile := by rw [hk3]; decide
    refine wpP_call (setPrecedence_wp Prec.COLONEQUAL h3) ?_
    rintro _ s4 ⟨h4, e4⟩
    refine wpP_call (commitNext_wp (ts := vs) h4 (by rw [e4]; exact ha.ready.toHere) hne (ha.ready.at hne)) ?_
    rintro _ s5 ⟨h5, e5⟩
    have hl5 : s5.len < s3.len := len_skip_lt ha.ready hne (by rw [e5, e4])
    refine wpP_call (operand_wp' hrec h5 (by omega)) ?_
    rintro _ s6 ⟨ws, t6, r, h6⟩
    have hl6 := h6.len
    refine wpP_mono (finish_wp hrec h6.on ho.head.append.append ?_ ?_ h6.stop (by omega)) ?_
    · rw [e]
      exact .ternary (by rw [hk, hk3]; exact .tagSetDelayed) ho.operand ho.trivia h2.trivia h2.operand hvs h6.trivia h6.operand
        ho.yields h2.holds (h2.stop.T.yields' ha) h6.holds
    · intro q hq; exact (Option.some.inj hq).symm
    · rintro _ s6 ⟨n, hd, hf⟩
      exact ⟨n, hd.of_le (by omega), hf⟩
  · refine wpP_call (triviaReset_wp h2.on h3 ha) ?_
    rintro _ s4 ⟨h4, hs4⟩
    have hl4 := SameAt.len hs4
    have e : l :: (tt ts ++ [.tok t]) ++ (tt us ++ [m']) = l :: (tt ts ++ .tok t :: (tt us ++ [m'])) := by simp
    refine wpP_mono (finish_wp hrec h4 ho.head ?_ ?_ (h2.stop.congr hs4) (by omega)) ?_
    · rw [e]
      exact .error (by rw [hk]; exact .set) ho.operand ho.trivia h2.trivia h2.operand ho.yields h2.holds
    · intro q hq; exact (Option.some.inj hq).symm
    · rintro _ s6 ⟨n, hd, hf⟩
      exact ⟨n, hd.of_le (by omega), hf⟩

/-! ### Calls -/

theorem callInfix_wp {op : GroupOp} {cop : CallOp} (hrec : RecOK U rec m) (h : PreInfix U F C G p l ts t0 t s)
    (hf : t.kind ≠ .Fake_ImplicitTimes) (hk : t.kind.infixParselet = .call t.kind op)
    (hs : (groupOpenerToCloser t.kind).isSome = true) (hop : op.toCall = some cop) (hm : 8 * s.len ≤ m) :
    wpP U.E (callInfix rec t.kind op t) s (fun _ s' => InfixPost U F C G l s s') := by
  have hpr : opPrec t.kind = some Prec.CALL := by simp [opPrec, hk]
  obtain rfl : p = Prec.CALL := h.prec _ hpr
  have hsrc := h.src
  have hyl := h.yields
  cases hsrc with
  | fake _ _ _ => exact absurd rfl hf
  | real hr hi _ =>
  have hne := ((infix_kinds t.kind).2.2.2.2.1 hi).2
  refine wpP_call (setPrecedence_wp Prec.HIGHEST h.on) ?_
  rintro _ s1 ⟨h1, e1⟩
  have hl1 : s1.len = s.len := by unfold PS.len; rw [e1]
  refine wpP_call (group_wp hrec h1.sub (by rw [e1]; exact hr) (Or.inr hk) hs hne (by omega)) ?_
  rintro _ s2 ⟨n, hd, hl2, hg⟩
  have h2 := h1.glue hd.on
  have hG := hg rfl
  rw [hpr] at hyl
  refine wpP_call (reduceCall_wp h2 hG hop h.operand h.trivia hyl) ?_
  rintro _ s3 ⟨h3, e3⟩
  have hl3 : s3.len = s2.len := by unfold PS.len; rw [e3]
  have ht : ¬ keeps (topOf C) Prec.CALL := h.tight.resolve_left fun h => by (rw [hk] at h; cases h.2)
  refine infixPost (by omega) (wpP_mono (climb_wp hrec h3 ?_ ?_ (.of_tails ?_) (by omega)) ?_)
  · cases hG <;> trivial
  · have : ∀ b body, Holds (topOf C) (.call (l :: tt ts) b cop body) := by
      intro b body q hq
      rcases List.mem_cons.mp hq with rfl | hq
      · exact ht
      · exact h.holds q hq
    cases hG <;> exact this _ _
  · cases hG <;> rfl
  · rintro _ s4 ⟨n', hd', hf', -⟩
    refine ⟨n', hd', hf'.trans ?_⟩
    cases hG <;> rfl

/-! ### Spans -/

theorem span_binary_wp (hrec : RecOK U rec m) {s0 : PS} (ho : Opened U F C G Prec.SEMISEMI l ts t s0 s1) (hk : t.kind = .SemiSemi)
    (h : On U F ((Prec.SEMISEMI, F.S.length) :: C) G (l :: (tt ts ++ [.tok t]) ++ (tt us ++ [r])) [] s)
    (hus : Tr us) (hr : Operand r) (hh : Holds Prec.SEMISEMI r) (hs : Stop U Prec.SEMISEMI G s.st r) (hm : 8 * s.len + 4 < m) :
    wpP U.E (reduceClimb rec (.binary .Span)) s (fun _ s' => ∃ n', Done U F C G n' s s' ∧ first n' = first l) :=
  binary_wp hrec ho (.span (by rw [hk]; rfl)) h hus hr hh hs hm

theorem span_ternary_wp {m' : Cst} {t3 t4 : Tok} (hrec : RecOK U rec m) {s0 : PS}
    (ho : Opened U F C G Prec.SEMISEMI l ts t s0 s1) (hk : t.kind = .SemiSemi)
    (h : On U F ((Prec.SEMISEMI, F.S.length) :: C) G (l :: (tt ts ++ [.tok t]) ++ (tt us ++ [m']) ++ (tt vs ++ [.tok t3]) ++ tt ws) [] s)
    (hus : Tr us) (hmo : Operand m') (hh : Holds Prec.SEMISEMI m') (hvs : Tr vs) (hk3 : t3.kind = .SemiSemi)
    (hy : Yields m' vs (opPrec t3.kind)) (hws : Tr ws) (hr : Ready U.env.cfg (gin G) s.st t4) (h4 : t4.kind.isTrivia = false)
    (hm : 8 * s.len + 6 < m) :
    wpP U.E (do rec (.prefix t4); reduceClimb rec (.ternary .Span)) s
      (fun _ s' => ∃ n', Done U F C G n' s s' ∧ first n' = first l) := by
  have := rank_le (.prefix t4)
  refine wpP_call (prefix_wp hrec h hr h4 (by omega)) ?_
  rintro _ s2 ⟨r, h2⟩
  have hl2 := h2.len
  have g2 := h2.on
  rw [List.append_assoc] at g2
  have e : l :: (tt ts ++ [.tok t]) ++ (tt us ++ [m']) ++ (tt vs ++ [.tok t3]) ++ (tt ws ++ [r]) =
      l :: (tt ts ++ .tok t :: (tt us ++ m' :: (tt vs ++ .tok t3 :: (tt ws ++ [r])))) := by simp
  refine wpP_mono (finish_wp hrec g2 ho.head.append.append ?_ ?_ h2.stop (by omega)) ?_
  · rw [e]
    exact .ternary (by rw [hk, hk3]; exact .span) ho.operand ho.trivia hus hmo hvs hws h2.operand ho.yields hh hy h2.holds
  · intro q hq; exact (Option.some.inj hq).symm
  · rintro _ s6 ⟨n, hd, hf⟩
    exact ⟨n, hd.of_le (by omega), hf⟩

theorem span2_wp {m' : Cst} (hrec : RecOK U rec m) {s0 : PS}
    (ho : Opened U F C G Prec.SEMISEMI l ts t s0 s1) (hk : t.kind = .SemiSemi)
    (h : On U F ((Prec.SEMISEMI, F.S.length) :: C) G (l :: (tt ts ++ [.tok t]) ++ (tt us ++ [m'])) [] s)
    (hus : Tr us) (hmo : Operand m') (hh : Holds Prec.SEMISEMI m') (hs : Stop U Prec.SEMISEMI G s.st m') (hm : 8 * s.len + 6 < m) :
    wpP U.E (span2 U.env rec) s (fun _ s' => ∃ n', Done U F C G n' s s' ∧ first n' = first l) := by
  refine wpP_call (currentTokenNTN_wp h) ?_
  rintro ⟨vs, t3⟩ s3 ⟨h3, ha⟩
  have hl3 : s3.len ≤ s.len := ha.len h.wf
  have hvs : Tr vs := ha.trivia isNTN_trivia
  refine wpP_ite (fun _ => ?_) (fun hc => ?_)
  · refine wpP_call (triviaReset_wp h h3 ha) ?_
    rintro _ s4 ⟨h4, hs4⟩
    have hl4 := SameAt.len hs4
    refine wpP_mono (span_binary_wp hrec ho hk h4 hus hmo hh (hs.congr hs4) (by omega)) ?_
    rintro _ s6 ⟨n, hd, hf⟩
    exact ⟨n, hd.of_le (by omega), hf⟩
  · have hk3 : t3.kind = .SemiSemi := by simp at hc; exact hc.2
    have hne : t3.kind ≠ .EndOfFile := by rw [hk3]; decide
    refine wpP_call (skipP_wp h3 ha.ready.toHere hne (ha.ready.at hne)) ?_
    rintro _ s4 ⟨h4, e4⟩
    have hl4 := len_skip_lt ha.ready hne e4
    refine wpP_call (currentTokenNTN_wp h4) ?_
    rintro ⟨ws, t4⟩ s5 ⟨h5, hb⟩
    have hl5 : s5.len ≤ s4.len := hb.len h4.wf
    have hR4 : R U.env.cfg s3.st s4.st := by rw [e4]; exact ha.ready.skip
    refine wpP_ite (fun _ => ?_) (fun hc4 => ?_)
    · refine wpP_call (triviaReset_wp' h4 h5 hb (.refl _) hb.reach) ?_
      rintro _ s6 ⟨h6, hs6, hR6⟩
      refine wpP_call (Q := fun _ s7 => On U F ((Prec.SEMISEMI, F.S.length) :: C) G (l :: (tt ts ++ [.tok t]) ++ (tt us ++ [m']))
        ([] ++ tt vs) s7 ∧ SameAt s3.st s7.st ∧ R U.env.cfg s3.st s7.st) ?_ ?_
      · have h1 := ha.ready.toHere
        have hR := R.trans h3.wf hR4 hR6
        obtain ⟨g1, g2⟩ := reset_wp (E := U.E) h3 h6 hR h1.split h1.start
        refine ⟨g1, g2, ?_⟩
        have e : ({ s6.st with rest := t3.text ++ t3.after, loc := t3.start } : St) = s6.st.seek s3.st := by
          unfold St.seek; rw [h1.split, h1.start, h3.eof, ← h6.eof]
        show R U.env.cfg s3.st { s6.st with rest := t3.text ++ t3.after, loc := t3.start }
        rw [e]
        exact R.seek h3.wf (R.refl h3.wf) hR
      · rintro _ s7 ⟨h7, hs7, hR7⟩
        refine wpP_call (triviaReset_wp' h h7 ha hs7 (R.trans h.wf ha.reach hR7)) ?_
        rintro _ s8 ⟨h8, hs8, -⟩
        have hl8 := SameAt.len hs8
        refine wpP_mono (span_binary_wp hrec ho hk h8 hus hmo hh (hs.congr hs8) (by omega)) ?_
        rintro _ s6 ⟨n, hd, hf⟩
        exact ⟨n, hd.of_le (by omega), hf⟩
    · have hp4 : t4.kind.isPossibleBeginning = true := by simp at hc4; exact hc4.1
      have hne4 : t4.kind ≠ .EndOfFile := fun h => by rw [h, possible_eof] at hp4; cases hp4
      have ht4 := possible_kinds _ (hb.ready.real hne4) hp4
      refine wpP_call (pushTrivia_wp (ts := vs) (Z := [.tok t3] ++ tt ws) (by simpa using h5)) ?_
      rintro _ s6 ⟨h6, e6⟩
      refine wpP_call (pushTokP_wp (Z := tt ws) (by simpa using h6)) ?_
      rintro _ s7 ⟨h7, e7⟩
      refine wpP_call (pushTrivia_wp' (ts := ws) h7) ?_
      rintro _ s8 ⟨h8, e8⟩
      have hl8 : s8.len = s5.len := by unfold PS.len; rw [e8, e7, e6]
      refine wpP_mono (span_ternary_wp hrec ho hk (us := us) (vs := vs) (ws := ws) (t3 := t3) (m' := m') (by simpa using h8) hus hmo hh hvs hk3
        (hs.T.yields (.of_ntn ha)) (hb.trivia isNTN_trivia) (by rw [e8, e7, e6]; exact hb.ready) ht4 (by omega)) ?_
      rintro _ s6 ⟨n, hd, hf⟩
      exact ⟨n, hd.of_le (by omega), hf⟩

theorem spanImplicit_wp {f t2 : Tok} (hrec : RecOK U rec m) {s0 : PS}
    (ho : Opened U F C G Prec.SEMISEMI l ts t s0 s1) (hk : t.kind = .SemiSemi)
    (h : On U F ((Prec.SEMISEMI, F.S.length) :: C) G (l :: (tt ts ++ [.tok t]) ++ (tt us ++ [.tok (f.atStart .Fake_ImplicitAll)])) [] s)
    (hus : Tr us) (hr : Ready U.env.cfg (gin G) s.st t2) (hk2 : t2.kind = .SemiSemi) (hm : 8 * s.len + 4 < m) :
    wpP U.E (spanImplicit U.env rec t2) s (fun _ s' => ∃ n', Done U F C G n' s s' ∧ first n' = first l) := by
  have hmo : Operand (.tok (f.atStart .Fake_ImplicitAll)) := operandKind_iff.mpr (show operandKind .Fake_ImplicitAll = true by decide)
  have hen : ends (.tok (f.atStart .Fake_ImplicitAll)) = false := ends_hollow rfl
  have hne : t2.kind ≠ .EndOfFile := by rw [hk2]; decide
  refine wpP_call (skipP_wp h hr.toHere hne (hr.at hne)) ?_
  rintro _ s2 ⟨h2, e2⟩
  have hl2 := len_skip_lt hr hne e2
  refine wpP_call (currentTokenNTN_wp h2) ?_
  rintro ⟨ws, t3⟩ s3 ⟨h3, ha⟩
  have hl3 : s3.len ≤ s2.len := ha.len h2.wf
  refine wpP_ite (fun _ => ?_) (fun hc => ?_)
  · refine wpP_call (triviaReset_wp' h2 h3 ha (.refl _) ha.reach) ?_
    rintro _ s4 ⟨h4, hs4, hR4⟩
    refine wpP_call (reset_wp h h4 (R.trans h.wf (by rw [e2]; exact hr.skip) hR4) hr.split hr.start) ?_
    rintro _ s5 ⟨h5, hs5⟩
    have hl5 := SameAt.len hs5
    refine wpP_mono (span_binary_wp hrec ho hk h5 hus hmo holds_tok (.of_ends hen (fun h => absurd h (by decide))) (by omega)) ?_
    rintro _ s6 ⟨n, hd, hf⟩
    exact ⟨n, hd.of_le (by omega), hf⟩
  · have hp3 : t3.kind.isPossibleBeginning = true := by simp at hc; exact hc.1
    have hne3 : t3.kind ≠ .EndOfFile := fun h => by rw [h, possible_eof] at hp3; cases hp3
    have ht3 := possible_kinds _ (ha.ready.real hne3) hp3
    refine wpP_call (pushTokP_wp (Z := tt ws) (by simpa using h3)) ?_
    rintro _ s4 ⟨h4, e4⟩
    refine wpP_call (pushTrivia_wp' h4) ?_
    rintro _ s5 ⟨h5, e5⟩
    have hl5 : s5.len = s3.len := by unfold PS.len; rw [e5, e4]
    refine wpP_mono (span_ternary_wp hrec ho hk (us := us) (vs := []) (ws := ws) (t3 := t2) (by simpa [tt] using h5) hus hmo holds_tok
      (by simp [Tr]) hk2 (Or.inr (Or.inl hen)) (ha.trivia isNTN_trivia) (by rw [e5, e4]; exact ha.ready) ht3 (by omega)) ?_
    rintro _ s6 ⟨n, hd, hf⟩
    exact ⟨n, hd.of_le (by omega), hf⟩

theorem semiSemiInfix_wp (hrec : RecOK U rec m) (h : PreInfix U F C G p l ts t0 t s)
    (hk : t.kind = .SemiSemi) (hm : 8 * s.len ≤ m) :
    wpP U.E (semiSemiInfix U.env rec t) s (fun _ s' => InfixPost U F C G l s s') := by
  obtain rfl : p = Prec.SEMISEMI := h.prec _ (by rw [hk]; rfl)
  refine wpP_call (open_wp h (by rw [hk]; decide)) ?_
  rintro _ s1 ho
  have hl1 := ho.len
  refine infixPost (by omega) ?_
  refine wpP_call (eatTriviaNTN_wp ho.on) ?_
  rintro t2 s2 ⟨us, h2, ha⟩
  have hl2 : s2.len ≤ s1.len := ha.len ho.on.wf
  have hus : Tr us := ha.trivia isNTN_trivia
  have hmo : Operand (.tok (t2.atStart .Fake_ImplicitAll)) := operandKind_iff.mpr (show operandKind .Fake_ImplicitAll = true by decide)
  refine wpP_ite (fun _ => ?_) (fun hc => wpP_ite (fun hc2 => ?_) (fun hc2 => ?_))
  · refine wpP_call (pushHollow_wp .Fake_ImplicitAll rfl h2 ha.ready.toHere) ?_
    rintro _ s3 ⟨h3, e3⟩
    have hl3 : s3.len = s2.len := by unfold PS.len; rw [e3]
    rw [List.append_assoc] at h3
    refine wpP_mono (span_binary_wp hrec ho hk h3 hus hmo holds_tok (.of_ends (ends_hollow rfl) (fun h => absurd h (by decide))) (by omega)) ?_
    rintro _ s6 ⟨n, hd, hf⟩
    exact ⟨n, hd.of_le (by omega), hf⟩
  · have hp : t2.kind.isPossibleBeginning = true := by simpa using hc
    have hne : t2.kind ≠ .EndOfFile := fun h => by rw [h, possible_eof] at hp; cases hp
    have ht := possible_kinds _ (ha.ready.real hne) hp
    have := rank_le (.prefix t2)
    refine wpP_call (prefix_wp hrec h2 ha.ready ht (by omega)) ?_
    rintro _ s3 ⟨r, h3⟩
    have hl3 := h3.len
    have g3 := h3.on
    rw [List.append_assoc] at g3
    refine wpP_mono (span2_wp hrec ho hk g3 hus h3.operand h3.holds h3.stop (by omega)) ?_
    rintro _ s6 ⟨n, hd, hf⟩
    exact ⟨n, hd.of_le (by omega), hf⟩
  · refine wpP_call (pushHollow_wp .Fake_ImplicitAll rfl h2 ha.ready.toHere) ?_
    rintro _ s3 ⟨h3, e3⟩
    have hl3 : s3.len = s2.len := by unfold PS.len; rw [e3]
    rw [List.append_assoc] at h3
    refine wpP_mono (spanImplicit_wp hrec ho hk h3 hus (by rw [e3]; exact ha.ready) (by simpa using hc2) (by omega)) ?_
    rintro _ s6 ⟨n, hd, hf⟩
    exact ⟨n, hd.of_le (by omega), hf⟩

end
end CodeParser
