import Verif.Proofs.Place8
/-!
Positions do not influence abstraction: the operators (helper lemmas).
-/
namespace CodeParser.Place
open Spec Abs

section
variable {env : AEnv} {c c' : Cst} {cs cs' : List Cst} {rec rec' : Req → A Ast} (hr : TwinRec rec rec') {d d' : ASrc}

theorem fileAst_sim (h : Twin c c') : ASim TwinA (fileAst env c) (fileAst env c') := by
  cases h with
  | tok e1 e2 =>
    simp only [fileAst]
    rw [e1, e2]
    exact ASim.ite (fun _ => ASim.bindE fun s => ASim.ok (TwinA.leaf TwinM.of)) fun _ => ASim.fail
  | node _ => exact ASim.fail
  | call _ _ => exact ASim.fail
  | callAgg _ _ => exact ASim.fail
  | box _ => exact ASim.fail
  | code => exact ASim.fail

theorem childrenSource_sim {a b : Ast} (h : TwinA a b) :
    ASim (fun p q => TwinAs p.1 q.1 ∧ TwinM ⟨p.2, []⟩ ⟨q.2, []⟩) (childrenSource a) (childrenSource b) := by
  unfold TwinA at h
  have hm : ∀ {m m' : AMeta}, bareMeta m = bareMeta m' → TwinM ⟨m.source, []⟩ ⟨m'.source, []⟩ := by
    intro m m' h
    unfold TwinM
    unfold bareMeta at h ⊢
    simp only [AMeta.mk.injEq] at h
    rw [h.1]
  cases a <;> cases b <;> simp only [bareA, reduceCtorEq] at h <;> try exact ASim.fail
  · simp only [Ast.call.injEq] at h; exact ASim.ok ⟨TwinAs.of h.2.1, hm h.2.2⟩
  · simp only [Ast.callMissing.injEq] at h; exact ASim.ok ⟨TwinAs.of h.2.1, hm h.2.2⟩
  · simp only [Ast.syntaxError.injEq] at h; exact ASim.ok ⟨TwinAs.of h.2.1, hm h.2.2⟩
  · simp only [Ast.abstractError.injEq] at h; exact ASim.ok ⟨TwinAs.of h.2.1, hm h.2.2⟩
  · simp only [Ast.linearBang.injEq] at h; exact ASim.ok ⟨TwinAs.two h.1 h.2.1, hm h.2.2⟩

include hr

theorem compoundAst_sim {op : CompoundOp} (h : Twins cs cs') : ASim TwinA (compoundAst env rec op cs d) (compoundAst env rec' op cs' d') := by
  have one : ∀ {s : Sym}, ASim TwinA (do let (_, c) ← expect2 cs; let a ← rec (.cst c); .ok (.callS s [a] (.of d)) : A Ast)
      (do let (_, c) ← expect2 cs'; let a ← rec' (.cst c); .ok (.callS s [a] (.of d')) : A Ast) :=
    ASim.bind (expect2_sim h) fun p q hp => ASim.bind (hr.tree hp.2) fun _ _ h => ASim.ok (TwinA.callS (TwinAs.one h) TwinM.of)
  have two : ASim TwinA (do let (c, e) ← expect2 cs; let a ← rec (.cst c); let b ← rec (.cst e); .ok (.callS .System_Pattern [a, b] (.of d)) : A Ast)
      (do let (c, e) ← expect2 cs'; let a ← rec' (.cst c); let b ← rec' (.cst e); .ok (.callS .System_Pattern [a, b] (.of d')) : A Ast) :=
    ASim.bind (expect2_sim h) fun p q hp => ASim.bind (hr.tree hp.1) fun _ _ h => ASim.bind (hr.tree hp.2) fun _ _ h' =>
      ASim.ok (TwinA.callS (TwinAs.two h h') TwinM.of)
  have int : ∀ {s : Sym}, ASim TwinA (do let (_, c) ← expect2 cs; if isTok .Integer c then let a ← rec (.cst c); .ok (.callS s [a] (.of d)) else fail .unhandled : A Ast)
      (do let (_, c) ← expect2 cs'; if isTok .Integer c then let a ← rec' (.cst c); .ok (.callS s [a] (.of d')) else fail .unhandled : A Ast) := by
    intro s
    refine ASim.bind (expect2_sim h) fun p q hp => ?_
    show ASim TwinA (if isTok .Integer p.2 then _ else _) (if isTok .Integer q.2 then _ else _)
    rw [isTok_eq hp.2]
    exact ASim.ite (fun _ => ASim.bind (hr.tree hp.2) fun _ _ h => ASim.ok (TwinA.callS (TwinAs.one h) TwinM.of)) fun _ => ASim.fail
  cases op with
  | Blank => exact one
  | BlankSequence => exact one
  | BlankNullSequence => exact one
  | CodeParser_PatternBlank => exact two
  | CodeParser_PatternBlankSequence => exact two
  | CodeParser_PatternBlankNullSequence => exact two
  | SlotSequence => exact int
  | Out => exact int
  | CodeParser_PatternOptionalDefault =>
    refine ASim.bind (expect2_sim h) ?_
    rintro ⟨x, y⟩ ⟨x', y'⟩ ⟨h1, h2⟩
    simp only at h1 h2 ⊢
    cases h2 with
    | tok e1 e2 =>
      simp only
      rw [e1]
      exact ASim.ite (fun _ => ASim.bind (hr.tree h1) fun _ _ h => ASim.ok (TwinA.callS (TwinAs.one (TwinA.callS (TwinAs.two h
        (TwinA.callS .nil TwinM.of)) TwinM.of)) TwinM.of)) fun _ => ASim.fail
    | node _ => exact ASim.fail
    | call _ _ => exact ASim.fail
    | callAgg _ _ => exact ASim.fail
    | box _ => exact ASim.fail
    | code => exact ASim.fail
  | Slot =>
    refine ASim.bind (expect2_sim h) ?_
    rintro ⟨x, y⟩ ⟨x', y'⟩ ⟨h1, h2⟩
    simp only at h1 h2 ⊢
    cases h2 with
    | tok e1 e2 =>
      simp only
      rw [e1, e2]
      exact ASim.ite (fun _ => ASim.bind (tokenAst_sim e1 e2) fun _ _ h => ASim.ok (TwinA.callS (TwinAs.one h) TwinM.of)) fun _ =>
        ASim.ite (fun _ => ASim.bindE fun s => ASim.ok (TwinA.callS (TwinAs.one (TwinA.leaf TwinM.of)) TwinM.of)) fun _ => ASim.fail
    | node _ => exact ASim.fail
    | call _ _ => exact ASim.fail
    | callAgg _ _ => exact ASim.fail
    | box _ => exact ASim.fail
    | code => exact ASim.fail

theorem prefixAst_sim {op : PrefixOp} (h : Twins cs cs') : ASim TwinA (prefixAst env rec op cs d) (prefixAst env rec' op cs' d') := by
  unfold prefixAst
  split
  · exact ASim.bind (expect2_sim h) fun p q hp => ASim.bind (negate_sim _ hp.2) fun _ _ h => hr _ _ (.neg h)
  · exact ASim.bind (expect2_sim h) fun p q hp => ASim.bind (flattenPlus_sim _ hp.2) fun _ _ h => ASim.bind (hr.tree h) fun _ _ h =>
      ASim.ok (TwinA.callS (TwinAs.one h) TwinM.of)
  · exact ASim.bind (expect2_sim h) fun p q hp => ASim.bindT fun _ _ => ASim.bind (hr.tree hp.2) fun _ _ h =>
      ASim.ok (TwinA.callS (TwinAs.one (TwinA.callS (TwinAs.one h) TwinM.refl)) rfl)
  · rcases h with _ | ⟨h1, _ | ⟨h2, _ | ⟨h3, h4⟩⟩⟩
    · exact ASim.fail
    · exact ASim.fail
    · simp only
      rw [isTok_eq h2]
      exact ASim.ite (fun _ => ASim.bind (hr.tree h1) fun _ _ h => ASim.bind (hr.tree h2) fun _ _ h' => ASim.ok (TwinA.linearBang h h' TwinM.of))
        fun _ => ASim.bind (hr.tree h2) fun _ _ h => ASim.ok (TwinA.abstractError (TwinAs.one h) TwinM.of)
    · exact ASim.fail
  · exact ASim.bind (expect2_sim h) fun p q hp => ASim.bind (fileAst_sim hp.2) fun _ _ h => ASim.ok (TwinA.callS (TwinAs.one h) TwinM.of)
  · exact ASim.bind (expect2_sim h) fun p q hp => ASim.bind (hr.tree hp.2) fun _ _ h => ASim.ok (TwinA.callS (TwinAs.one h) TwinM.of)

theorem postfixAst_sim {op : PostfixOp} (h : Twins cs cs') : ASim TwinA (postfixAst rec op cs d) (postfixAst rec' op cs' d') := by
  unfold postfixAst
  refine ASim.bind (expect2_sim h) ?_
  rintro ⟨x, y⟩ ⟨x', y'⟩ ⟨h1, h2⟩
  simp only at h1 h2 ⊢
  split
  · exact ASim.bind (hr.tree h1) fun _ _ h => ASim.ok (TwinA.callS (TwinAs.one h) TwinM.of)
  · cases h2 with
    | tok e1 e2 =>
      simp only
      rw [e1, e2]
      refine ASim.ite (fun _ => ASim.bind (derivativeBody_sim _ h1) fun p q hp => ASim.bind (hr.tree hp.2) fun _ _ h => ASim.ok ?_) fun _ =>
        ASim.ite (fun _ => ASim.bindE fun s => ASim.bind (hr.tree h1) fun _ _ h => ASim.ok (TwinA.call .refl (TwinAs.one h) TwinM.refl)) fun _ => ASim.fail
      rw [hp.1]
      exact TwinA.call .refl (TwinAs.one h) TwinM.refl
    | node _ => exact ASim.fail
    | call _ _ => exact ASim.fail
    | callAgg _ _ => exact ASim.fail
    | box _ => exact ASim.fail
    | code => exact ASim.fail
  · exact ASim.bind (hr.tree h1) fun _ _ h => ASim.ok (TwinA.callS (TwinAs.one h) TwinM.of)

theorem binaryAst_sim {op : BinaryOp} (h : Twins cs cs') : ASim TwinA (binaryAst env rec op cs d) (binaryAst env rec' op cs' d') := by
  unfold binaryAst
  refine ASim.bind (expect3_sim h) ?_
  rintro ⟨l, m, r⟩ ⟨l', m', r'⟩ ⟨h1, h2, h3⟩
  simp only at h1 h2 h3 ⊢
  split
  · exact divideAst_sim hr h1 h3
  · exact ASim.bind (hr.tree h1) fun _ _ h => ASim.bind (hr.tree h3) fun _ _ h' => ASim.ok (TwinA.call h (TwinAs.one h') TwinM.of)
  · exact ASim.bind (hr.tree h1) fun _ _ h => ASim.bind (hr.tree h3) fun _ _ h' =>
      ASim.ite (fun _ => ASim.ok (TwinA.callS (TwinAs.three h h' .refl) TwinM.of)) fun _ => ASim.ok (TwinA.callS (TwinAs.two h h') TwinM.of)
  · exact ASim.bind (hr.tree h3) fun _ _ h => ASim.bind (hr.tree h1) fun _ _ h' => ASim.ok (TwinA.call h (TwinAs.one h') TwinM.of)
  · exact ASim.bind (fileAst_sim h3) fun _ _ h' => ASim.bind (hr.tree h1) fun _ _ h => ASim.ok (TwinA.callS (TwinAs.two h h') TwinM.of)
  · exact ASim.bind (fileAst_sim h3) fun _ _ h' => ASim.bind (hr.tree h1) fun _ _ h => ASim.ok (TwinA.callS (TwinAs.two h h') TwinM.of)
  · rw [isTok_eq h2, isTok_eq h3]
    exact ASim.ite (fun _ => ASim.bind (hr.tree h1) fun _ _ h => ASim.ok (TwinA.callS (TwinAs.one h) TwinM.of)) fun _ => ASim.fail
  · rw [isNode_eq h1]
    exact ASim.bind (hr.tree h1) fun _ _ h => ASim.bind (hr.tree h3) fun _ _ h' =>
      ASim.ite (fun _ => ASim.ok (TwinA.abstractError (TwinAs.two h h') TwinM.of)) fun _ => ASim.ok (TwinA.callS (TwinAs.two h h') TwinM.of)

theorem infixAst_sim {op : InfixOp} (h : Twins cs cs') : ASim TwinA (infixAst env rec op cs d) (infixAst env rec' op cs' d') := by
  have he := evens_twins h
  unfold infixAst
  split
  · exact inequalityAst_sim hr h
  · exact plusAst_sim hr h
  · exact timesAst_sim hr he
  · exact ASim.bind (ASim.mapA (fun _ _ h => quirkAst_sim hr h) (List.forall₂_reverse_iff.mpr he)) fun _ _ h => ASim.ok (TwinA.callS h TwinM.of)
  · refine ASim.bind (ASim.mapA (ra := TwinA) (fun x y h => ?_) he) fun _ _ h => ASim.ok (TwinA.callS h TwinM.of)
    have hc := h
    cases h with
    | tok e1 e2 =>
      simp only
      rw [e1]
      exact ASim.ite (fun _ => ASim.ok (TwinA.leaf TwinM.of)) fun _ => hr.tree hc
    | node _ => exact hr.tree hc
    | call _ _ => exact hr.tree hc
    | callAgg _ _ => exact hr.tree hc
    | box _ => exact hr.tree hc
    | code => exact hr.tree hc
  · exact messageAst_sim hr he
  · exact tildeAst_sim hr TwinM.of he
  · rw [List.Forall₂.length_eq h]
    refine ASim.ite (fun _ => ?_) fun _ => ASim.fail
    refine ASim.ite (fun _ => ?_) fun _ => ?_
    · exact ASim.bind (recs hr he) fun _ _ h => ASim.ok (TwinA.callS h TwinM.of)
    · exact ASim.bind (ASim.mapA (fun _ _ h => quirkAst_sim hr h) he) fun _ _ h => ASim.ok (TwinA.callS h TwinM.of)

theorem ternaryAst_sim {op : TernaryOp} (h : Twins cs cs') : ASim TwinA (ternaryAst rec op cs d) (ternaryAst rec' op cs' d') := by
  unfold ternaryAst
  refine ASim.bind (expect5_sim h) ?_
  rintro ⟨l, x, m, o, r⟩ ⟨l', x', m', o', r'⟩ ⟨h1, h2, h3, h4, h5⟩
  simp only at h1 h2 h3 h4 h5 ⊢
  split
  · rw [isNode_eq h3]
    refine ASim.ite (fun _ => ASim.bind (hr.tree h3) fun _ _ hb => ASim.bind (childrenSource_sim hb) fun p q hp =>
      ASim.bind (hr.tree h1) fun _ _ ha => ASim.bind (hr.tree h5) fun _ _ hc =>
        ASim.ok (TwinA.call (TwinA.abstractError hp.1 hp.2) (TwinAs.two ha hc) TwinM.of)) fun _ => ?_
    exact ASim.bind (hr.tree h3) fun _ _ hb => ASim.bind (hr.tree h1) fun _ _ ha => ASim.bind (hr.tree h5) fun _ _ hc =>
      ASim.ok (TwinA.call hb (TwinAs.two ha hc) TwinM.of)
  · rw [isTok_eq h4, isTok_eq h5]
    exact ASim.ite (fun _ => ASim.bind (hr.tree h1) fun _ _ ha => ASim.bind (hr.tree h3) fun _ _ hb =>
      ASim.ok (TwinA.callS (TwinAs.two ha hb) TwinM.of)) fun _ => ASim.fail
  · exact ASim.bind (hr.tree h1) fun _ _ ha => ASim.bind (hr.tree h3) fun _ _ hb => ASim.bind (hr.tree h5) fun _ _ hc =>
      ASim.ok (TwinA.callS (TwinAs.two (TwinA.callS (TwinAs.two ha hb) TwinM.refl) hc) TwinM.of)
  all_goals
    exact ASim.bind (hr.tree h1) fun _ _ ha => ASim.bind (hr.tree h3) fun _ _ hb => ASim.bind (hr.tree h5) fun _ _ hc =>
      ASim.ok (TwinA.callS (TwinAs.three ha hb hc) TwinM.of)

theorem prefixBinaryAst_sim {op : PrefixBinaryOp} (h : Twins cs cs') :
    ASim TwinA (prefixBinaryAst rec op cs d) (prefixBinaryAst rec' op cs' d') := by
  unfold prefixBinaryAst
  refine ASim.bind (expect3_sim h) ?_
  rintro ⟨l, m, r⟩ ⟨l', m', r'⟩ ⟨h1, h2, h3⟩
  simp only at h1 h2 h3 ⊢
  have alt : ASim TwinA (do let a ← rec (.cst m); let b ← rec (.cst r); .ok (.callS op.toSymbol [a, b] (.of d)) : A Ast)
      (do let a ← rec' (.cst m'); let b ← rec' (.cst r'); .ok (.callS op.toSymbol [a, b] (.of d')) : A Ast) :=
    ASim.bind (hr.tree h2) fun _ _ ha => ASim.bind (hr.tree h3) fun _ _ hb => ASim.ok (TwinA.callS (TwinAs.two ha hb) TwinM.of)
  have dif : ∀ {ds ds' : List Cst}, Twins ds ds' →
      ASim TwinA (do let (_, v) ← expect2 ds; let a ← rec (.cst m); let b ← rec (.cst v); .ok (.callS op.toSymbol [a, b] (.of d)) : A Ast)
      (do let (_, v) ← expect2 ds'; let a ← rec' (.cst m'); let b ← rec' (.cst v); .ok (.callS op.toSymbol [a, b] (.of d')) : A Ast) :=
    fun h => ASim.bind (expect2_sim h) fun p q hp => ASim.bind (hr.tree h2) fun _ _ ha => ASim.bind (hr.tree hp.2) fun _ _ hb =>
      ASim.ok (TwinA.callS (TwinAs.two ha hb) TwinM.of)
  cases h3 with
  | @node k _ _ h =>
    by_cases hk : k = .prefix .DifferentialD
    · subst hk; exact dif h
    · by_cases hk' : k = .prefix .CapitalDifferentialD
      · subst hk'; exact dif h
      · cases k with
        | «prefix» p => cases p <;> first | exact alt | exact absurd rfl hk | exact absurd rfl hk'
        | _ => exact alt
  | tok _ _ => exact alt
  | call _ _ => exact alt
  | callAgg _ _ => exact alt
  | box _ => exact alt
  | code => exact alt

theorem groupNodeAst_sim {op : GroupOp} (h : Twins cs cs') : ASim TwinA (groupNodeAst rec op cs d) (groupNodeAst rec' op cs' d') := by
  unfold groupNodeAst
  split
  · exact parenAst_sim hr h
  · exact nakedAst_sim hr h
  · exact nakedAst_sim hr h
  · exact nakedAst_sim hr h
  · exact ASim.bind (groupAst_sim hr h) fun p q hp => ASim.ok (TwinA.call .refl hp TwinM.of)

theorem syntaxErrorAst_sim {err : SyntaxErrorKind} (h : Twins cs cs') :
    ASim TwinA (syntaxErrorAst rec err cs d) (syntaxErrorAst rec' err cs' d') := by
  rcases h with _ | ⟨h1, _ | ⟨h2, _ | ⟨h3, _ | ⟨h4, h5⟩⟩⟩⟩
  · exact ASim.fail
  · exact ASim.fail
  · exact ASim.fail
  · exact ASim.bind (hr.tree h1) fun _ _ ha => ASim.bind (hr.tree h3) fun _ _ hb => ASim.ok (TwinA.syntaxError (TwinAs.two ha hb) TwinM.of)
  · exact ASim.fail

theorem callAst_sim {h h' : Cst} {m : Bool} {op : CallOp} (hh : Twin h h') (hc : Twins cs cs') :
    ASim TwinA (callAst rec h m op cs d) (callAst rec' h' m op cs' d') := by
  unfold callAst
  rw [partIssue_eq hh, callIssue_eq hh, isTok_eq hh]
  split
  · have h1 : (cs[1]? = none ∧ cs'[1]? = none) ∨ ∃ a b, cs[1]? = some a ∧ cs'[1]? = some b ∧ Twin a b := by
      rcases hc with _ | ⟨h1, _ | ⟨h2, h3⟩⟩
      · exact Or.inl ⟨rfl, rfl⟩
      · exact Or.inl ⟨rfl, rfl⟩
      · exact Or.inr ⟨_, _, rfl, rfl, h2⟩
    rcases h1 with ⟨e1, e2⟩ | ⟨a, b, e1, e2, hab⟩
    · rw [e1, e2]; exact ASim.fail
    · rw [e1, e2]
      simp only
      have alt : ASim TwinA (do let data ← issueAt (callIssue h') cs d; let a ← rec (.cst h); let (_, as) ← groupAst rec cs; .ok (.call a as data) : A Ast)
          (do let data ← issueAt (callIssue h') cs' d'; let a ← rec' (.cst h'); let (_, as) ← groupAst rec' cs'; .ok (.call a as data) : A Ast) :=
        ASim.bind issueAt_sim fun _ _ hd => ASim.bind (hr.tree hh) fun _ _ ha => ASim.bind (groupAst_sim hr hc) fun p q hp =>
          ASim.ok (TwinA.call ha hp hd)
      cases hab with
      | @node k _ _ hds =>
        by_cases hk : k = .group .CodeParser_GroupSquare
        · subst hk
          exact ASim.bindT fun _ _ => ASim.bind issueAt_sim fun _ _ hd => ASim.bind (hr.tree hh) fun _ _ ha =>
            ASim.bind (groupAst_sim hr hds) fun p q hp => ASim.ok (TwinA.callS (.cons ha hp) hd)
        · cases k with
          | group p => cases p <;> first | exact alt | exact absurd rfl hk
          | _ => exact alt
      | tok _ _ => exact alt
      | call _ _ => exact alt
      | callAgg _ _ => exact alt
      | box _ => exact alt
      | code => exact alt
  · have tail : ∀ {m m' : AMeta}, TwinM m m' →
        ASim TwinA (do let a ← rec (.cst h); let (_, as) ← groupAst rec cs; .ok (.call (.callS .System_TypeSpecifier [a] .none) as m) : A Ast)
        (do let a ← rec' (.cst h'); let (_, as) ← groupAst rec' cs'; .ok (.call (.callS .System_TypeSpecifier [a] .none) as m') : A Ast) :=
      fun hd => ASim.bind (hr.tree hh) fun _ _ ha => ASim.bind (groupAst_sim hr hc) fun p q hp =>
        ASim.ok (TwinA.call (TwinA.callS (TwinAs.one ha) TwinM.refl) hp hd)
    refine ASim.ite (fun _ => ?_) fun _ => ?_
    · exact tail TwinM.of
    · exact ASim.bindT fun _ _ => tail rfl
  · exact ASim.bind issueAt_sim fun _ _ hd => ASim.bind (hr.tree hh) fun _ _ ha => ASim.bind (groupAst_sim hr hc) fun p q hp =>
      ASim.ok (TwinA.callS (.cons ha hp) hd)
  · exact ASim.bind (hr.tree hh) fun _ _ ha => ASim.bind (missingAst_sim hr hc) fun p q hp => ASim.ok (TwinA.callMissing ha hp TwinM.of)
  · exact ASim.bind (hr.tree hh) fun _ _ ha => ASim.bind (missingAst_sim hr hc) fun p q hp =>
      ASim.ok (TwinA.callMissing (TwinA.callS (TwinAs.one ha) TwinM.refl) hp TwinM.of)
  · exact ASim.bind (hr.tree hh) fun _ _ ha => ASim.bind (missingAst_sim hr hc) fun p q hp =>
      ASim.ok (TwinA.callMissing .refl (.cons ha hp) TwinM.of)

theorem nodeAst_sim {k : NodeKind} (h : Twins cs cs') : ASim TwinA (nodeAst env rec k cs d) (nodeAst env rec' k cs' d') := by
  cases k with
  | «prefix» op => exact prefixAst_sim hr h
  | «infix» op => exact infixAst_sim hr h
  | «postfix» op => exact postfixAst_sim hr h
  | binary op => exact binaryAst_sim hr h
  | ternary op => exact ternaryAst_sim hr h
  | prefixBinary op => exact prefixBinaryAst_sim hr h
  | compound op => exact compoundAst_sim hr h
  | group op => exact groupNodeAst_sim hr h
  | groupMissingCloser op => exact ASim.bind (missingAst_sim hr h) fun p q hp => ASim.ok (TwinA.missingCloser hp TwinM.of)
  | groupMissingOpener op => exact ASim.bind (groupArgs_sim hr (dropLast_twins h)) fun _ _ ha => ASim.ok (TwinA.missingOpener ha TwinM.of)
  | syntaxError err => exact syntaxErrorAst_sim hr h

theorem step_sim' : TwinRec (Abs.step env rec) (Abs.step env rec') := by
  intro r r' h
  cases h with
  | neg h => exact negatedAst_sim hr h
  | cst h =>
    refine ASim.bindT fun _ _ => ?_
    cases h with
    | tok e1 e2 => exact tokenAst_sim e1 e2
    | node h => exact nodeAst_sim hr h
    | call _ _ => exact ASim.fail
    | callAgg h1 h2 => exact callAst_sim hr h1 h2
    | box _ => exact ASim.fail
    | code => exact ASim.fail
end

theorem absRun_sim {env : AEnv} (n : Nat) : TwinRec (Abs.run env n) (Abs.run env n) := by
  induction n with
  | zero => intro r r' _ a b h; cases h
  | succ n ih => exact step_sim' ih

mutual
theorem csize_eq : ∀ (c : Cst) {c' : Cst}, Twin c c' → csize c = csize c'
  | .tok _, _, h => by cases h; rfl
  | .node _ cs, _, h => by cases h with | node h => simp only [csize]; rw [csizeL_eq cs h]
  | .call hd _ _ b, _, h => by cases h with | call h1 h2 => simp only [csize]; rw [csizeL_eq hd h1, csizeL_eq b h2]
  | .callAgg hd _ _ b, _, h => by cases h with | callAgg h1 h2 => simp only [csize]; rw [csize_eq hd h1, csizeL_eq b h2]
  | .box _ cs, _, h => by cases h with | box h => simp only [csize]; rw [csizeL_eq cs h]
  | .code _, _, h => by cases h; rfl
theorem csizeL_eq : ∀ (cs : List Cst) {cs' : List Cst}, Twins cs cs' → csizeL cs = csizeL cs'
  | [], _, h => by cases h; rfl
  | c :: cs, _, h => by
    cases h with | cons h1 h2 => simp only [csizeL]; rw [csize_eq c h1, csizeL_eq cs h2]
end

theorem abstractCst_sim {env : AEnv} {c c' : Cst} (h : Twin c c') : ASim TwinA (abstractCst env c) (abstractCst env c') := by
  unfold abstractCst abstractR Req.meas
  simp only
  rw [csize_eq c h]
  exact absRun_sim _ _ _ (.cst h)

/-! ### Aggregation -/

mutual
theorem aggregate_sim : ∀ (c : Cst) {c' : Cst}, Twin c c' → ASim (fun o o' => List.Forall₂ Twin o.toList o'.toList) (aggregate c) (aggregate c')
  | .tok t, _, h => by
    have hc := h
    cases h with
    | tok e1 e2 =>
      simp only [aggregate]
      rw [e1]
      exact ASim.ite (fun _ => ASim.ok .nil) fun _ => ASim.ok (.cons hc .nil)
  | .node k cs, _, h => by
    cases h with
    | @node _ _ cs' h =>
      by_cases hk : k = .group .Token_Comment
      · subst hk; unfold aggregate; exact ASim.ok .nil
      · intro a b h1 h2
        unfold aggregate at h1 h2
        split at h1
        · exact absurd rfl hk
        split at h2
        · exact absurd rfl hk
        rcases e1 : aggregateL cs with e | xs <;> rw [e1] at h1
        · cases h1
        rcases e2 : aggregateL cs' with e | ys <;> rw [e2] at h2
        · cases h2
        cases h1; cases h2
        exact .cons (.node (aggregateL_sim cs h _ _ e1 e2)) .nil
  | .call hd m op b, _, h => by
    cases h with
    | @call _ hd' _ _ _ b' h1 h2 =>
      intro x y e1 e2
      unfold aggregate at e1 e2
      rcases f1 : aggregateL hd with e | xs <;> rw [f1] at e1
      · cases e1
      rcases f2 : aggregateL hd' with e | ys <;> rw [f2] at e2
      · cases e2
      have hxy := aggregateL_sim hd h1 _ _ f1 f2
      rcases hxy with _ | ⟨ha, hb⟩
      · cases e1
      · simp only at e1 e2
        rcases g1 : aggregateL b with e | xs <;> rw [g1] at e1
        · cases e1
        rcases g2 : aggregateL b' with e | ys <;> rw [g2] at e2
        · cases e2
        cases e1; cases e2
        exact .cons (.callAgg ha (aggregateL_sim b h2 _ _ g1 g2)) .nil
  | .callAgg .., _, h => by cases h; unfold aggregate; exact ASim.err
  | .box k cs, _, h => by
    cases h with
    | @box _ _ cs' h =>
      intro a b h1 h2
      unfold aggregate at h1 h2
      rcases e1 : aggregateL cs with e | xs <;> rw [e1] at h1
      · cases h1
      rcases e2 : aggregateL cs' with e | ys <;> rw [e2] at h2
      · cases h2
      cases h1; cases h2
      exact .cons (.box (aggregateL_sim cs h _ _ e1 e2)) .nil
  | .code _, _, h => by cases h; unfold aggregate; exact ASim.ok (.cons .code .nil)
theorem aggregateL_sim : ∀ (cs : List Cst) {cs' : List Cst}, Twins cs cs' → ASim Twins (aggregateL cs) (aggregateL cs')
  | [], _, h => by cases h; unfold aggregateL; exact ASim.ok .nil
  | c :: cs, _, h => by
    cases h with
    | @cons _ c' _ cs' h1 h2 =>
      intro a b e1 e2
      unfold aggregateL at e1 e2
      rcases f1 : aggregate c with e | x <;> rw [f1] at e1
      · cases e1
      rcases f2 : aggregate c' with e | y <;> rw [f2] at e2
      · cases e2
      simp only at e1 e2
      rcases g1 : aggregateL cs with e | xs <;> rw [g1] at e1
      · cases e1
      rcases g2 : aggregateL cs' with e | ys <;> rw [g2] at e2
      · cases e2
      cases e1; cases e2
      exact forall2_append (aggregate_sim c h1 _ _ f1 f2) (aggregateL_sim cs h2 _ _ g1 g2)
end

/-- Trees that differ in positions only have abstract syntax trees that do. -/
theorem abstract_same {env : AEnv} {cs cs' ds ds' : List Cst} {as as' : List Ast} (h : bares cs = bares cs')
    (h1 : aggregateL cs = .ok ds) (h1' : aggregateL cs' = .ok ds') (h2 : mapA (abstractCst env) ds = .ok as)
    (h2' : mapA (abstractCst env) ds' = .ok as') : bareAs as = bareAs as' :=
  TwinAs.eq (ASim.mapA (fun _ _ h => abstractCst_sim h) (aggregateL_sim cs (twins_of_bare cs h) _ _ h1 h1') _ _ h2 h2')

theorem asts_inv {cfg : Cfg} {env : AEnv} {conv : Conv} {first : FirstLine} {bs : List UInt8} {p : List Ast × Option Unsafe}
    (h : parseBytesAsts cfg env conv first bs = .ok p) :
    ∃ r cs, parseBytesCst cfg conv first bs = .ok r ∧ aggregateL r.syntax' = .ok cs ∧ mapA (abstractCst env) cs = .ok p.1 ∧
      p.2 = r.unsafeEncoding := by
  unfold parseBytesAsts at h
  rcases h1 : parseBytesCst cfg conv first bs with e | r <;> rw [h1] at h
  · cases h
  simp only at h
  rcases h2 : aggregateL r.syntax' with e | cs <;> rw [h2] at h
  · cases h
  simp only at h
  rcases h3 : mapA (abstractCst env) cs with e | as <;> rw [h3] at h
  · cases h
  cases h
  exact ⟨r, cs, rfl, h2, h3, rfl⟩

theorem aggregateL_append {xs ys zs : List Cst} (h : aggregateL (xs ++ ys) = .ok zs) :
    ∃ us vs, aggregateL xs = .ok us ∧ aggregateL ys = .ok vs ∧ zs = us ++ vs := by
  induction xs generalizing zs with
  | nil => exact ⟨[], zs, by unfold aggregateL; rfl, h, rfl⟩
  | cons x xs ih =>
    rw [List.cons_append] at h
    unfold aggregateL at h
    rcases h1 : aggregate x with e | o <;> rw [h1] at h
    · cases h
    simp only at h
    rcases h2 : aggregateL (xs ++ ys) with e | ws <;> rw [h2] at h
    · cases h
    cases h
    obtain ⟨us, vs, h3, h4, rfl⟩ := ih h2
    refine ⟨o.toList ++ us, vs, ?_, h4, (List.append_assoc ..).symm⟩
    unfold aggregateL
    rw [h1, h3]

theorem mapA_append {α β : Type} {f : α → A β} {xs ys : List α} {zs : List β} (h : mapA f (xs ++ ys) = .ok zs) :
    ∃ us vs, mapA f xs = .ok us ∧ mapA f ys = .ok vs ∧ zs = us ++ vs := by
  induction xs generalizing zs with
  | nil => exact ⟨[], zs, rfl, h, rfl⟩
  | cons x xs ih =>
    rw [List.cons_append] at h
    unfold mapA at h
    rcases h1 : f x with e | o <;> rw [h1] at h
    · cases h
    rcases h2 : mapA f (xs ++ ys) with e | ws <;> rw [h2] at h
    · cases h
    cases h
    obtain ⟨us, vs, h3, h4, rfl⟩ := ih h2
    refine ⟨o :: us, vs, ?_, h4, rfl⟩
    unfold mapA
    rw [h1, h3]

end CodeParser.Place
