import Verif.Proofs.Place7
/-!
Positions do not influence abstraction: the nodes (helper lemmas).
-/
namespace CodeParser.Place
open Spec Abs

section
variable {env : AEnv} {c c' : Cst} {cs cs' : List Cst}

theorem binaryAt_sim {name : List UInt8} (h : Twin c c') : ASim Twin (binaryAt env name c) (binaryAt env name c') := by
  unfold binaryAt
  refine ASim.ite (fun _ => ASim.ok h) fun _ => ?_
  have hc := h
  cases h with
  | node h =>
    refine ASim.ite (fun _ => ASim.bind (expect3_sim h) ?_) fun _ => ASim.ok hc
    rintro ⟨l, m, r⟩ ⟨l', m', r'⟩ ⟨h1, h2, h3⟩
    simp only at h1 h2 h3 ⊢
    cases h1 with
    | tok e1 e2 =>
      simp only
      rw [e1, e2, isTok_eq h2]
      exact ASim.ite (fun _ => ASim.bindE fun s => ASim.ite (fun _ => ASim.ite (fun _ => ASim.ok h3) fun _ => ASim.fail) fun _ => ASim.ok hc)
        fun _ => ASim.ok hc
    | node _ => exact ASim.ok hc
    | call _ _ => exact ASim.ok hc
    | callAgg _ _ => exact ASim.ok hc
    | box _ => exact ASim.ok hc
    | code => exact ASim.ok hc
  | tok _ _ => exact ASim.ok hc
  | call _ _ => exact ASim.ok hc
  | callAgg _ _ => exact ASim.ok hc
  | box _ => exact ASim.ok hc
  | code => exact ASim.ok hc

theorem slotsHead_eq (h : Twin c c') : slotsHead c = slotsHead c' := by
  cases h
  case tok e1 _ => simp only [slotsHead]; rw [e1]
  case node k _ _ _ => cases k <;> rfl
  all_goals rfl

theorem fineHead_eq (h : Twin c c') : fineHead c = fineHead c' := by
  cases h
  case tok e1 _ => simp only [fineHead]; rw [e1]
  case node k _ _ _ => cases k <;> rfl
  all_goals rfl

theorem callIssue_eq (h : Twin c c') : callIssue c = callIssue c' := by
  unfold callIssue
  rw [slotsHead_eq h, fineHead_eq h]
  cases h
  case tok e1 _ => simp only; rw [e1]
  all_goals rfl

theorem partIssue_eq (h : Twin c c') : partIssue c = partIssue c' := by
  unfold partIssue
  rw [slotsHead_eq h, fineHead_eq h]
  cases h
  case tok e1 _ => simp only; rw [e1]
  all_goals rfl

theorem issueAt_sim {i : Option (AIssueTag × Severity)} {d d' : ASrc} : ASim TwinM (issueAt i cs d) (issueAt i cs' d') := by
  unfold issueAt
  cases i with
  | none => exact ASim.ok TwinM.of
  | some p => exact ASim.bindT fun _ _ => ASim.bindT fun _ _ => ASim.ok rfl

theorem selectChildren_sim {a b : Ast} (h : TwinA a b) : TwinAs (selectChildren a) (selectChildren b) := by
  have h0 := h
  unfold TwinA at h
  cases a <;> cases b <;> simp only [bareA, reduceCtorEq] at h <;> try exact TwinAs.one h0
  rename_i h1 as d h1' as' d'
  simp only [Ast.call.injEq] at h
  obtain ⟨e1, e2, e3⟩ := h
  cases h1 <;> cases h1' <;> simp only [bareA, reduceCtorEq] at e1 <;> try exact TwinAs.one h0
  rename_i k s _ k' s' _
  simp only [Ast.leaf.injEq] at e1
  obtain ⟨rfl, rfl, _⟩ := e1
  simp only [selectChildren]
  by_cases hk : k = .Symbol ∧ s = Sym.CodeParser_Comma.text
  · rw [if_pos hk, if_pos hk]; exact TwinAs.of e2
  · rw [if_neg hk, if_neg hk]; exact TwinAs.one h0

theorem flatMap_twins : ∀ {as bs : List Ast}, TwinAs as bs → TwinAs (as.flatMap selectChildren) (bs.flatMap selectChildren)
  | [], _, h => by cases h; exact .nil
  | a :: as, _, h => by
    rcases h with _ | ⟨h1, h2⟩
    simp only [List.flatMap_cons]
    exact forall2_append (selectChildren_sim h1) (flatMap_twins h2)

/-- Requests that differ in positions only. -/
inductive TwinR : Req → Req → Prop
  | cst {x y : Cst} : Twin x y → TwinR (.cst x) (.cst y)
  | neg {g g' e e'} : TwinN g g' → TwinR (.neg g e) (.neg g' e')

/-- What is known about the recursion. -/
def TwinRec (rec rec' : Req → A Ast) : Prop := ∀ r r', TwinR r r' → ASim TwinA (rec r) (rec' r')

variable {rec rec' : Req → A Ast} (hr : TwinRec rec rec') {d d' : ASrc}
include hr

theorem TwinRec.tree (h : Twin c c') : ASim TwinA (rec (.cst c)) (rec' (.cst c')) := hr _ _ (.cst h)

theorem recs (h : Twins cs cs') : ASim TwinAs (mapA (recC rec) cs) (mapA (recC rec') cs') :=
  ASim.mapA (fun _ _ h => hr.tree h) h

theorem recipAst_sim (h : Twin c c') : ASim TwinA (recipAst rec c d) (recipAst rec' c' d') :=
  ASim.bind (hr.tree h) fun _ _ ha => ASim.ok (TwinA.callS (.cons ha (TwinAs.one .refl)) TwinM.of)

theorem operandAst_sim {f f' : Cst → A Cst} (hf : ∀ c c', Twin c c' → ASim Twin (f c) (f' c')) {o o' : AOperand} (h : TwinO o o') :
    ASim TwinA (operandAst rec f o) (operandAst rec' f' o') := by
  cases h with
  | cst h => exact ASim.bind (hf _ _ h) fun _ _ h => hr.tree h
  | recip h => exact recipAst_sim hr h
  | negOne => exact ASim.ok .refl
  | neg h => exact hr _ _ (.neg h)

theorem timesAst_sim (h : Twins cs cs') : ASim TwinA (timesAst env rec cs d) (timesAst env rec' cs' d') :=
  ASim.bind (flatL_sim h) fun _ _ ho => ASim.bind (ASim.mapA (fun _ _ h => operandAst_sim hr (fun _ _ h => binaryAt_sim h) h) ho) fun _ _ ha =>
    ASim.ok (TwinA.callS ha TwinM.of)

theorem divideAst_sim {l l' r r' : Cst} (hl : Twin l l') (h : Twin r r') :
    ASim TwinA (divideAst env rec l r d) (divideAst env rec' l' r' d') :=
  ASim.bind (flat_sim l hl) fun _ _ ho => ASim.bind (ASim.mapA (fun _ _ h => operandAst_sim hr (fun _ _ h => ASim.ok h) h) ho) fun _ _ ha =>
    ASim.bind (recipAst_sim hr h) fun _ _ hb => ASim.ok (TwinA.callS (forall2_append ha (TwinAs.one hb)) TwinM.of)

theorem negatedAst_sim {g g' : Negated} (h : TwinN g g') : ASim TwinA (negatedAst env rec g d) (negatedAst env rec' g' d') := by
  cases h with
  | zero => exact ASim.ok (TwinA.leaf TwinM.of)
  | integer => exact ASim.bindE fun s => ASim.ok (TwinA.leaf TwinM.of)
  | real => exact ASim.bindE fun s => ASim.ok (TwinA.leaf TwinM.of)
  | times h =>
    refine ASim.bind (timesAst_sim hr (evens_twins h)) fun a b hab => ?_
    unfold TwinA at hab
    cases a <;> cases b <;> simp only [bareA, reduceCtorEq] at hab <;> try exact ASim.fail
    simp only [Ast.call.injEq] at hab
    obtain ⟨e1, e2, e3⟩ := hab
    exact ASim.ok (TwinA.call e1 (.cons .refl (TwinAs.of e2)) e3)

omit hr in
theorem plusPair_sim {p q : Cst × Cst} (h : Twin2 p q) : ASim TwinO (plusPair p) (plusPair q) := by
  obtain ⟨o, x⟩ := p
  obtain ⟨o', x'⟩ := q
  obtain ⟨h1, h2⟩ := h
  simp only at h1 h2
  cases h1 with
  | tok e1 e2 =>
    simp only [plusPair]
    rw [e1]
    exact ASim.ite (fun _ => ASim.ok (.cst h2)) fun _ => ASim.ite (fun _ => ASim.bindT fun _ _ => ASim.bindT fun _ _ =>
      ASim.bind (negate_sim _ h2) fun _ _ hg => ASim.ok (.neg hg)) fun _ => ASim.fail
  | node _ => exact ASim.fail
  | call _ _ => exact ASim.fail
  | callAgg _ _ => exact ASim.fail
  | box _ => exact ASim.fail
  | code => exact ASim.fail

theorem plusAst_sim (h : Twins cs cs') : ASim TwinA (plusAst env rec cs d) (plusAst env rec' cs' d') := by
  rcases h with _ | ⟨h1, h2⟩
  · exact ASim.fail
  · unfold plusAst
    simp only
    have hf : ∀ o o', TwinO o o' → ASim TwinA (operandAst rec (fun c => do let c ← binaryAt env Sym.System_Plus.short c; flattenPlus c) o)
        (operandAst rec' (fun c => do let c ← binaryAt env Sym.System_Plus.short c; flattenPlus c) o') := fun o o' h =>
      operandAst_sim hr (fun _ _ h => ASim.bind (binaryAt_sim h) fun _ _ h => flattenPlus_sim _ h) h
    exact ASim.bind (pairs_sim h2) fun _ _ hp => ASim.bind (hf _ _ (.cst h1)) fun _ _ ha =>
      ASim.bind (ASim.mapA (fun _ _ h => ASim.bind (plusPair_sim h) fun _ _ h => hf _ _ h) hp) fun _ _ hb =>
        ASim.ok (TwinA.callS (.cons ha hb) TwinM.of)

theorem quirkAst_sim {name : List UInt8} (h : Twin c c') : ASim TwinA (quirkAst env rec name c) (quirkAst env rec' name c') :=
  ASim.bind (binaryAt_sim h) fun _ _ h => hr.tree h

theorem messageAst_sim (h : Twins cs cs') : ASim TwinA (messageAst env rec cs d) (messageAst env rec' cs' d') := by
  rcases h with _ | ⟨h1, h2⟩
  · exact ASim.fail
  · unfold messageAst
    simp only
    rw [List.Forall₂.length_eq h2]
    refine ASim.bind (hr.tree h1) fun _ _ ha => ASim.bind (ASim.mapA (ra := TwinA) (fun x y h => ?_) h2) fun _ _ hb =>
      ASim.ok (TwinA.callS (.cons ha hb) ?_)
    · have hc := h
      cases h with
      | tok e1 e2 =>
        simp only
        rw [e1, e2]
        exact ASim.ite (fun _ => ASim.bindE fun s => ASim.ok (TwinA.leaf TwinM.of)) fun _ => hr.tree hc
      | node _ => exact hr.tree hc
      | call _ _ => exact hr.tree hc
      | callAgg _ _ => exact hr.tree hc
      | box _ => exact hr.tree hc
      | code => exact hr.tree hc
    · unfold TwinM bareMeta
      split <;> rfl

omit hr in
theorem simplify_sim {a b : Ast} (hab : TwinA a b) {r r' : List (Sym × Ast)}
    (h : List.Forall₂ (fun p q => p.1 = q.1 ∧ TwinA p.2 q.2) r r') (af : Option Bool) :
    TwinA (simplify a r af d) (simplify b r' af d') := by
  have h1 : TwinAs (r.map (·.2)) (r'.map (·.2)) := by
    induction h with
    | nil => exact .nil
    | cons h1 _ ih => exact .cons h1.2 ih
  have h2 : ∀ s : Sym × Bool, (r.all fun p => p.1 == s.1) = (r'.all fun p => p.1 == s.1) := by
    intro s
    clear h1
    induction h with
    | nil => rfl
    | cons h1 _ ih => simp only [List.all_cons]; rw [ih, h1.1]
  have h3 : TwinAs (r.flatMap fun p => [.symbol p.1, p.2]) (r'.flatMap fun p => [.symbol p.1, p.2]) := by
    clear h1 h2
    induction h with
    | nil => exact .nil
    | cons h1 _ ih =>
      simp only [List.flatMap_cons, List.cons_append, List.nil_append]
      rw [h1.1]
      exact .cons .refl (.cons h1.2 ih)
  have h4 : (simplifyRators.find? fun s => r.all fun p => p.1 == s.1) = simplifyRators.find? fun s => r'.all fun p => p.1 == s.1 := by
    congr 1; funext s; exact h2 s
  unfold simplify
  simp only
  rw [h4]
  split
  · exact TwinA.callS (.cons hab h1) TwinM.of
  · exact TwinA.callS (TwinAs.one (TwinA.callS (.cons hab h1) TwinM.refl)) TwinM.of
  · split
    · exact TwinA.callS (.cons hab h3) TwinM.of
    · exact TwinA.callS (.cons hab h3) TwinM.of

theorem inequalityLoop_sim : ∀ {ps ps' : List (Tok × Cst)}, List.Forall₂ (fun p q => p.1.kind = q.1.kind ∧ Twin p.2 q.2) ps ps' →
    ∀ {a b : Ast}, TwinA a b → ∀ {r r' : List (Sym × Ast)}, List.Forall₂ (fun p q => p.1 = q.1 ∧ TwinA p.2 q.2) r r' →
    ∀ af : Option Bool, ASim TwinA (inequalityLoop rec d ps a r af) (inequalityLoop rec' d' ps' b r' af)
  | [], _, hp, a, b, hab, r, r', h, af => by
    cases hp
    simp only [inequalityLoop]
    exact ASim.ok (simplify_sim hab h af)
  | (o, c) :: ps, _, hp, a, b, hab, r, r', h, af => by
    rcases hp with _ | @⟨_, ⟨o', c'⟩, _, ps', ⟨h1, h2⟩, h3⟩
    simp only at h1 h2
    simp only [inequalityLoop]
    rw [h1]
    rcases inequalityOperatorToSymbol o'.kind with _ | s
    · exact ASim.fail
    · simp only
      refine ASim.bind (hr.tree h2) fun x y hxy => ?_
      have hn : List.Forall₂ (fun (p q : Sym × Ast) => p.1 = q.1 ∧ TwinA p.2 q.2) (r ++ [(s, x)]) (r' ++ [(s, y)]) :=
        forall2_append h (.cons ⟨rfl, hxy⟩ .nil)
      have hs : List.Forall₂ (fun (p q : Sym × Ast) => p.1 = q.1 ∧ TwinA p.2 q.2) [(s, x)] [(s, y)] := .cons ⟨rfl, hxy⟩ .nil
      rcases vectorInequalityAffinity s with _ | _ | b
      · exact ASim.fail
      · exact inequalityLoop_sim h3 hab hn af
      · exact ASim.ite (fun _ => inequalityLoop_sim h3 (simplify_sim hab h af) hs (some b)) fun _ =>
          inequalityLoop_sim h3 hab hn _

omit hr in
theorem withTok_sim {p q : Cst × Cst} (h : Twin2 p q) :
    ASim (fun p q => p.1.kind = q.1.kind ∧ Twin p.2 q.2) (withTok p) (withTok q) := by
  obtain ⟨o, x⟩ := p
  obtain ⟨o', x'⟩ := q
  obtain ⟨h1, h2⟩ := h
  simp only at h1 h2
  unfold withTok
  cases h1 with
  | tok e1 e2 => exact ASim.ok ⟨e1, h2⟩
  | node _ => exact ASim.fail
  | call _ _ => exact ASim.fail
  | callAgg _ _ => exact ASim.fail
  | box _ => exact ASim.fail
  | code => exact ASim.fail

theorem inequalityAst_sim (h : Twins cs cs') : ASim TwinA (inequalityAst rec cs d) (inequalityAst rec' cs' d') := by
  rcases h with _ | ⟨h1, h2⟩
  · exact ASim.fail
  · exact ASim.bind (hr.tree h1) fun _ _ ha => ASim.bind (pairs_sim h2) fun _ _ hp =>
      ASim.bind (ASim.mapA (fun _ _ h => withTok_sim h) hp) fun _ _ hq => inequalityLoop_sim hr hq ha .nil none

theorem tildeRestA_sim : ∀ {cs cs' : List Cst}, Twins cs cs' → ∀ {m m' : AMeta}, TwinM m m' → ∀ {a b : Ast}, TwinA a b →
    ASim TwinA (Abs.tildeRest rec m a cs) (Abs.tildeRest rec' m' b cs')
  | [], _, h, m, m', hm, a, b, hab => by cases h; exact ASim.fail
  | [c], _, h, m, m', hm, a, b, hab => by
    rcases h with _ | ⟨h1, ⟨⟩⟩
    simp only [Abs.tildeRest]
    exact ASim.bind (hr.tree h1) fun _ _ h => ASim.ok (TwinA.abstractError (TwinAs.two hab h) hm)
  | [c, e], _, h, m, m', hm, a, b, hab => by
    rcases h with _ | ⟨h1, _ | ⟨h2, ⟨⟩⟩⟩
    simp only [Abs.tildeRest]
    exact ASim.bind (hr.tree h1) fun _ _ h => ASim.bind (hr.tree h2) fun _ _ h' => ASim.ok (TwinA.call h (TwinAs.two hab h') hm)
  | c :: e :: x :: rest, _, h, m, m', hm, a, b, hab => by
    rcases h with _ | ⟨h1, _ | ⟨h2, _ | ⟨h3, h4⟩⟩⟩
    simp only [Abs.tildeRest]
    exact ASim.bind (hr.tree h1) fun _ _ h => ASim.bind (hr.tree h2) fun _ _ h' =>
      tildeRestA_sim (cs := x :: rest) (.cons h3 h4) hm (TwinA.call h (TwinAs.two hab h') TwinM.refl)

theorem tildeAst_sim {m m' : AMeta} (hm : TwinM m m') (h : Twins cs cs') : ASim TwinA (tildeAst rec m cs) (tildeAst rec' m' cs') := by
  rcases h with _ | ⟨h1, _ | ⟨h2, _ | ⟨h3, _ | ⟨h4, h5⟩⟩⟩⟩
  · exact ASim.fail
  · exact ASim.fail
  · simp only [tildeAst]
    exact ASim.bind (hr.tree h1) fun _ _ h => ASim.bind (hr.tree h2) fun _ _ h' => ASim.ok (TwinA.abstractError (TwinAs.two h h') hm)
  · simp only [tildeAst]
    exact ASim.bind (hr.tree h1) fun _ _ h => tildeRestA_sim hr (.cons h2 (.cons h3 .nil)) hm h
  · simp only [tildeAst]
    exact ASim.bind (hr.tree h1) fun _ _ h => ASim.bind (tildeRestA_sim hr (.cons h2 (.cons h3 .nil)) TwinM.refl h) fun _ _ h =>
      tildeRestA_sim hr (.cons h4 h5) hm h

theorem groupArgs_sim (h : Twins cs cs') : ASim TwinAs (groupArgs rec cs) (groupArgs rec' cs') :=
  ASim.bind (recs hr h) fun _ _ h => ASim.ok (flatMap_twins h)

theorem groupAst_sim (h : Twins cs cs') : ASim (fun p q => TwinAs p.2 q.2) (groupAst rec cs) (groupAst rec' cs') :=
  ASim.bindT fun _ _ => ASim.bind (dropEnds_sim h) fun _ _ h => ASim.bind (groupArgs_sim hr h) fun _ _ h => ASim.ok h

theorem missingAst_sim (h : Twins cs cs') : ASim (fun p q => TwinAs p.2 q.2) (missingAst rec cs) (missingAst rec' cs') := by
  unfold missingAst
  refine ASim.bindT fun _ _ => ?_
  rcases h with _ | ⟨h1, h2⟩
  · exact ASim.fail
  · exact ASim.bind (groupArgs_sim hr h2) fun _ _ h => ASim.ok h

theorem commaOr_sim {err : AbstractError} {f f' : Cst → A Ast} (hf : ∀ c c', Twin c c' → ASim TwinA (f c) (f' c')) : Twin c c' →
    ASim TwinA
      (match c with
        | .node (.infix .CodeParser_Comma) ds => do
          let as ← mapA (recC rec) (evens ds)
          .ok (.abstractError err as (.of d))
        | c => f c)
      (match c' with
        | .node (.infix .CodeParser_Comma) ds => do
          let as ← mapA (recC rec') (evens ds)
          .ok (.abstractError err as (.of d'))
        | c => f' c) := by
  intro h
  have hc := h
  cases h with
  | @node k cs cs' h =>
    by_cases hk : k = .infix .CodeParser_Comma
    · subst hk
      exact ASim.bind (recs hr (evens_twins h)) fun _ _ h => ASim.ok (TwinA.abstractError h TwinM.of)
    · split
      · rename_i heq; exact absurd (Cst.node.inj heq).1 hk
      · split
        · rename_i heq; exact absurd (Cst.node.inj heq).1 hk
        · exact hf _ _ hc
  | tok _ _ => exact hf _ _ hc
  | call _ _ => exact hf _ _ hc
  | callAgg _ _ => exact hf _ _ hc
  | box _ => exact hf _ _ hc
  | code => exact hf _ _ hc

theorem nakedAst_sim {err : AbstractError} (h : Twins cs cs') : ASim TwinA (nakedAst rec err cs d) (nakedAst rec' err cs' d') := by
  rcases h with _ | ⟨h1, _ | ⟨h2, _ | ⟨h3, _ | ⟨h4, h5⟩⟩⟩⟩
  · exact ASim.fail
  · exact ASim.fail
  · exact ASim.ok (TwinA.abstractError .nil TwinM.of)
  · exact commaOr_sim hr (fun _ _ h => ASim.bind (hr.tree h) fun _ _ h => ASim.ok (TwinA.abstractError (TwinAs.one h) TwinM.of)) h2
  · exact ASim.fail

theorem parenAst_sim (h : Twins cs cs') : ASim TwinA (parenAst rec cs d) (parenAst rec' cs' d') := by
  have hc := h
  have alt : ASim TwinA (do let cs ← dropEnds cs; let as ← mapA (recC rec) cs; .ok (.abstractError .OpenParen as (.of d)) : A Ast)
      (do let cs ← dropEnds cs'; let as ← mapA (recC rec') cs; .ok (.abstractError .OpenParen as (.of d')) : A Ast) :=
    ASim.bind (dropEnds_sim hc) fun _ _ h => ASim.bind (recs hr h) fun _ _ h => ASim.ok (TwinA.abstractError h TwinM.of)
  rcases h with _ | ⟨h1, _ | ⟨h2, _ | ⟨h3, _ | ⟨h4, h5⟩⟩⟩⟩
  · exact alt
  · exact alt
  · exact alt
  · exact commaOr_sim hr (fun _ _ h => hr.tree h) h2
  · exact alt

end
end CodeParser.Place
