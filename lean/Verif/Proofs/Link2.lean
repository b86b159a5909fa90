import Verif.Proofs.Link1
/-!
What is written for issues, containers, abstract syntax and parse results.
-/
namespace CodeParser.LinkP
open CodeParser Wll Spec.Link

theorem seq_assoc (a b c : W) : ((a ;> b) ;> c) = (a ;> b ;> c) := by
  funext ab k
  simp only [W.seq]
  cases a ab k with
  | none => rfl
  | some p =>
    obtain ⟨is, k⟩ := p
    simp only
    cases b ab k with
    | none => rfl
    | some q =>
      obtain ⟨js, k⟩ := q
      simp only
      cases c ab k with
      | none => rfl
      | some r => simp

theorem Den.listOf' {α : Type} {f : α → Option Expr} {w : α → W} (as : List α)
    (hw : ∀ a ∈ as, Den CutL (w a) ((f a).map ([·]))) :
    Den CutL (W.fn Sym.System_List.name as.length ;> W.each (as.map w)) (((all f as).map list).map ([·])) := by
  refine (Den.listOf (h := cs! "System`List") as hw).congr ?_
  cases all f as <;> rfl

theorem all_some {α : Type} (f : α → Expr) (as : List α) : all (fun a => some (f a)) as = some (as.map f) := by
  induction as with
  | nil => rfl
  | cons a as ih => rw [all, ih]; rfl

theorem Den.listStr (ds : List (List UInt8)) :
    Den CutL (W.fn Sym.System_List.name ds.length ;> W.each (ds.map W.str))
      ((some (list (ds.map Expr.str))).map ([·])) := by
  refine (Den.listOf' (f := fun d => some (Expr.str d)) ds fun d _ => Den.str).congr ?_
  rw [all_some]
  rfl

theorem den_action (a : Action) : Den CutL a.put ((actionExpr a).map ([·])) := by
  obtain ⟨label, kind, src⟩ := a
  unfold Action.put actionExpr
  cases kind with
  | delete =>
    refine (Den.three (h := cs! "CodeParser`CodeAction") Den.str Den.sym
      (q := ((spanExpr src.1 src.2).map fun e => assoc [assoc [rule (.sym (cs! "CodeParser`Source")) e]]))
      ((Den.one (h := cs! "System`Association") (den_span src)).congr ?_)).congr ?_
    · cases spanExpr src.1 src.2 <;> rfl
    · cases spanExpr src.1 src.2 <;> rfl
  | replace t =>
    refine (Den.three (h := cs! "CodeParser`CodeAction") Den.str Den.sym
      (q := ((spanExpr src.1 src.2).map fun e => assoc [assoc [rule (.sym (cs! "CodeParser`Source")) e],
        rule (text (cs! "ReplacementText")) (.str t)]))
      ((Den.two (h := cs! "System`Association") (den_span src)
        (p := some (rule (text (cs! "ReplacementText")) (.str t)))
        (Den.two (h := cs! "System`Rule") Den.lit Den.str)).congr ?_)).congr ?_
    · cases spanExpr src.1 src.2 <;> rfl
    · cases spanExpr src.1 src.2 <;> rfl
  | insert t =>
    refine (Den.three (h := cs! "CodeParser`CodeAction") Den.str Den.sym
      (q := ((spanExpr src.1 src.2).map fun e => assoc [assoc [rule (.sym (cs! "CodeParser`Source")) e],
        rule (text (cs! "InsertionText")) (.str t)]))
      ((Den.two (h := cs! "System`Association") (den_span src)
        (p := some (rule (text (cs! "InsertionText")) (.str t)))
        (Den.two (h := cs! "System`Rule") Den.lit Den.str)).congr ?_)).congr ?_
    · cases spanExpr src.1 src.2 <;> rfl
    · cases spanExpr src.1 src.2 <;> rfl

theorem Den.rule {k v : W} {key : Expr} {o : Option Expr} (hk : Den CutL k ((some key).map ([·])))
    (hv : Den CutL v (o.map ([·]))) :
    Den CutL (W.fn Sym.System_Rule.name 2 ;> k ;> v) (o.map fun e => [Spec.Link.rule key e]) := by
  refine (Den.two (h := cs! "System`Rule") hk hv).congr ?_
  cases o <;> rfl

/-- A list that is only mentioned if it is not empty. -/
theorem den_unlessEmpty {α : Type} {l : List α} {key : Expr} {k v : W} {o : Option (List Expr)}
    (hk : Den CutL k ((some key).map ([·]))) (hv : Den CutL v ((o.map list).map ([·])))
    (hl : l = [] → o = some []) (ho : ∀ es, o = some es → es.length = l.length) :
    Den CutL (unlessEmpty l (W.fn Sym.System_Rule.name 2 ;> k ;> v)) (o.map (listRule key)) := by
  cases l with
  | nil => rw [hl rfl]; exact Den.nil
  | cons a l =>
    refine (Den.rule hk hv).congr ?_
    cases o with
    | none => rfl
    | some es =>
      have := ho es rfl
      cases es with
      | nil => cases this
      | cons e es => rfl

theorem listRule_length {α : Type} {l : List α} {key : Expr} {es : List Expr} (h : es.length = l.length) :
    (listRule key es).length = count l := by
  cases l <;> cases es <;> first | rfl | cases h

theorem den_issue (compat : Bool) (i : Wll.Issue) : Den CutL (i.put compat) ((issueExpr compat i).map ([·])) := by
  obtain ⟨make, tag, msg, sev, src, val, actions, descs, sources⟩ := i
  unfold Wll.Issue.put issueExpr
  simp only
  have h1 := den_source compat src
  have h2 : Den CutL (W.fn Sym.System_Rule.name 2 ;> W.sym .System_ConfidenceLevel ;> W.put [.real val])
      ((some (rule (.sym (cs! "System`ConfidenceLevel")) (.real val))).map ([·])) :=
    Den.rule (o := some (.real val)) Den.sym (Den.put rfl)
  have h3 := den_unlessEmpty (l := actions) (key := .sym (cs! "CodeParser`CodeActions")) (Den.sym (s := .CodeParser_CodeActions))
    (Den.listOf' actions fun a _ => den_action a) (by rintro rfl; rfl) (all_length actions)
  have h4 := den_unlessEmpty (l := descs) (key := text (cs! "AdditionalDescriptions")) (Den.lit)
    (o := some (descs.map Expr.str)) (Den.listStr descs) (by rintro rfl; rfl) (by rintro es ⟨⟩; simp)
  have h5 := den_unlessEmpty (l := sources) (key := text (cs! "AdditionalSources")) (Den.lit)
    (Den.listOf' sources fun a _ => den_sourceRhs a) (by rintro rfl; rfl) (all_length sources)
  have h6 := Den.fn (h := cs! "System`Association") (n := 2 + count actions + count descs + count sources)
    (h1.seq (h2.seq (h3.seq (h4.seq h5)))) (by
      intro es hes
      cases g1 : dataExpr compat src with
      | none => simp [g1] at hes
      | some x =>
      cases g2 : all actionExpr actions with
      | none => simp [g1, g2] at hes
      | some y =>
      cases g3 : all sourceExpr sources with
      | none => simp [g1, g2, g3] at hes
      | some z =>
      simp [g1, g2, g3] at hes
      subst hes
      simp only [List.length_cons, List.length_append]
      rw [listRule_length (all_length _ _ g2), listRule_length (all_length _ _ g3),
        listRule_length (l := descs) (by simp)]
      omega)
  refine (Den.fn (h := make.name) (n := 4) (Den.lit.seq (Den.str.seq (Den.lit.seq h6))) ?_).congr ?_
  · intro es hes
    cases g1 : dataExpr compat src with
    | none => simp [g1] at hes
    | some x =>
    cases g2 : all actionExpr actions with
    | none => simp [g1, g2] at hes
    | some y =>
    cases g3 : all sourceExpr sources with
    | none => simp [g1, g2, g3] at hes
    | some z =>
    simp [g1, g2, g3] at hes
    subst hes
    rfl
  · cases dataExpr compat src with
    | none => rfl
    | some x =>
    cases all actionExpr actions with
    | none => rfl
    | some y =>
    cases all sourceExpr sources with
    | none => rfl
    | some z => simp [assoc, symbol]

theorem den_issues (compat : Bool) (is : List Wll.Issue) :
    Den CutL (putIssues compat is) ((issuesExpr compat is).map ([·])) := by
  refine (Den.listOf' is fun i _ => den_issue compat i).congr ?_
  rw [issuesExpr]
  cases all (issueExpr compat) is <;> rfl

theorem Den.ifSome {α : Type} {x : Option α} {w : α → W} {key : Expr} {k : W} {f : α → Option Expr}
    (hk : Den CutL k ((some key).map ([·]))) (hw : ∀ a, Den CutL (w a) ((f a).map ([·]))) :
    Den CutL (Wll.ifSome x fun a => W.fn Sym.System_Rule.name 2 ;> k ;> w a) ((optExpr f x).map (optRule key)) := by
  cases x with
  | none => exact Den.nil
  | some a =>
    refine (Den.rule hk (hw a)).congr ?_
    rw [optExpr]
    cases f a <;> rfl

theorem Den.ifExpr {x : Option Expr} {key : Expr} {k : W} (hk : Den CutL k ((some key).map ([·]))) :
    Den CutL (Wll.ifSome x fun e => W.fn Sym.System_Rule.name 2 ;> k ;> W.expr e) (some (optRule key x)) := by
  cases x with
  | none => exact Den.nil
  | some a => exact Den.rule (o := some a) hk Den.expr

theorem Den.ifPlain {α : Type} {x : Option α} {w : α → W} {key : Expr} {k : W} {f : α → Expr}
    (hk : Den CutL k ((some key).map ([·]))) (hw : ∀ a, Den CutL (w a) ((some (f a)).map ([·]))) :
    Den CutL (Wll.ifSome x fun a => W.fn Sym.System_Rule.name 2 ;> k ;> w a) (some (optRule key (x.map f))) := by
  cases x with
  | none => exact Den.nil
  | some a => exact Den.rule (o := some (f a)) hk (hw a)

theorem opt_length {α : Type} {f : α → Option Expr} {x : Option α} {key : Expr} {y : Option Expr}
    (h : optExpr f x = some y) : (optRule key y).length = countO x := by
  cases x with
  | none => cases h; rfl
  | some a =>
    rw [optExpr] at h
    cases g : f a with
    | none => simp [g] at h
    | some e => simp [g] at h; subst h; rfl

theorem optRule_length {x : Option Expr} {key : Expr} : (optRule key x).length = countO x := by
  cases x <;> rfl

theorem optRule_map_length {α : Type} {x : Option α} {f : α → Expr} {key : Expr} :
    (optRule key (x.map f)).length = countO x := by
  cases x <;> rfl

theorem den_meta (compat : Bool) (m : Meta) : Den CutL (m.put compat) ((metaExpr compat m).map ([·])) := by
  obtain ⟨source, issues, confidence, actions, descs, fileName, tabs, newlines, simple, complex⟩ := m
  unfold Meta.put metaExpr
  simp only
  have h1 := Den.ifSome (x := issues) (Den.name (n := cs! "CodeParser`SyntaxIssues")) (den_issues compat)
  have h2 := Den.ifExpr (x := tabs) (Den.lit (cs := cs! "EmbeddedTabs"))
  have h3 := Den.ifExpr (x := newlines) (Den.lit (cs := cs! "EmbeddedNewlines"))
  have h4 := Den.ifExpr (x := simple) (Den.lit (cs := cs! "SimpleLineContinuations"))
  have h5 := Den.ifExpr (x := complex) (Den.lit (cs := cs! "ComplexLineContinuations"))
  have h6 := den_rule compat source
  have h7 : Den CutL (Wll.ifSome confidence fun n => W.expr n.expr) (some (confidence.map Number.expr).toList) := by
    cases confidence with
    | none => exact Den.nil
    | some n => exact Den.expr
  have h8 := Den.ifSome (x := actions) (Den.sym (s := .CodeParser_CodeActions))
    (f := fun as => do return list (← all actionExpr as))
    (fun as => (Den.listOf' as fun a _ => den_action a).congr (by cases all actionExpr as <;> rfl))
  have h9 := Den.ifPlain (x := descs) (Den.lit (cs := cs! "AdditionalDescriptions")) Den.listStr
  have h10 := Den.ifExpr (x := fileName) (Den.lit (cs := cs! "FileName"))
  refine (Den.fn (h := cs! "System`Association") (h1.seq (h2.seq (h3.seq (h4.seq (h5.seq (h6.seq (h7.seq
    (h8.seq (h9.seq h10))))))))) ?_).congr ?_
  · intro es hes
    cases g1 : optExpr (issuesExpr compat) issues with
    | none => simp [g1] at hes
    | some x =>
    cases g2 : sourceRule compat source with
    | none => simp [g1, g2] at hes
    | some y =>
    cases g3 : optExpr (fun as => do return list (← all actionExpr as)) actions with
    | none => rw [g1, g2, g3] at hes; simp at hes
    | some z =>
    rw [g1, g2, g3] at hes
    simp only [Option.map_some, Option.bind_eq_bind, Option.bind_some, Option.pure_def, Option.some.injEq] at hes
    subst hes
    simp only [List.length_append]
    rw [opt_length g1, opt_length g3, rule_length _ _ _ g2, optRule_map_length]
    simp only [optRule_length]
    have : (confidence.map Number.expr).toList.length = countO confidence := by cases confidence <;> rfl
    rw [this]
    omega
  · cases optExpr (issuesExpr compat) issues with
    | none => rfl
    | some x =>
    cases sourceRule compat source with
    | none => rfl
    | some y =>
    cases optExpr (fun as => do return list (← all actionExpr as)) actions with
    | none => rfl
    | some z => simp [assoc]; rfl

theorem den_missing (cs : List Char) :
    Den CutL (W.fn Sym.System_List.name 1 ;> W.fn Sym.System_Missing.name 1 ;> W.lit cs)
      ((some (missingExpr cs)).map ([·])) :=
  Den.one (h := cs! "System`List") (o := some _) (Den.one (h := cs! "System`Missing") Den.lit)

theorem den_body (compat : Bool) (b : Body) : Den CutL (b.put compat) ((containerBody compat b).map ([·])) := by
  cases b with
  | nodes ts =>
    refine (den_seq compat ts).congr ?_
    rw [containerBody]
    cases treesExpr compat ts <;> rfl
  | emptyInput => exact den_missing _
  | encoding u => exact den_missing _

theorem kindName_eq (k : ContainerKind) : k.name = kindName k := by cases k <;> rfl

theorem den_container (compat : Bool) (c : Container) :
    Den CutL (c.put compat) ((containerExpr compat c).map ([·])) := by
  unfold Container.put
  rw [kindName_eq]
  refine (Den.three (Den.name (n := kindName c.kind)) (den_body compat c.body) (den_meta compat c.data)).congr ?_
  rw [containerExpr]
  cases containerBody compat c.body <;> cases metaExpr compat c.data <;> rfl

theorem den_result (compat : Bool) {trees : W} {o : Option Expr} (r : Extra) (h : Den CutL trees (o.map ([·]))) :
    Den CutL (putResult compat trees r) ((resultExpr compat o r).map ([·])) := by
  unfold putResult
  have h1 : Den CutL (match r.unsafeEncoding with
      | none => trees
      | some u => W.fn Sym.System_List.name 1 ;> W.fn Sym.System_Missing.name 1 ;> W.lit u.missingReason)
      ((firstPart o r.unsafeEncoding).map ([·])) := by
    cases r.unsafeEncoding with
    | none => exact h
    | some u => exact den_missing _
  have h2 := den_issues compat (if r.fatal.isEmpty then r.nonFatal else r.fatal)
  have h3 : (if r.fatal.isEmpty then r.nonFatal else r.fatal) = (if r.fatal = [] then r.nonFatal else r.fatal) := by
    cases r.fatal <;> simp
  refine (Den.fn (h := cs! "System`List") (n := 6) (h1.seq (h2.seq ((den_locs r.simple).seq
    ((den_locs r.complex).seq ((den_locs r.newlines).seq (den_locs r.tabs)))))) ?_).congr ?_
  all_goals
    rw [h3]
    try unfold resultExpr
    generalize firstPart o r.unsafeEncoding = a
    generalize issuesExpr compat (if r.fatal = [] then r.nonFatal else r.fatal) = b
  · intro es hes
    cases a <;> cases b <;> simp at hes
    subst hes
    rfl
  · cases a <;> cases b <;> rfl

/-! ### Abstract syntax -/

theorem den_astData (compat : Bool) (full : AIssue → Wll.Issue) (d : AMeta) :
    Den CutL (AMeta.put compat full d) ((astData compat full d).map ([·])) := by
  obtain ⟨source, issues⟩ := d
  unfold AMeta.put
  have h1 := den_rule compat (ofASrc source)
  have h2 := rule_length compat (ofASrc source)
  have h3 : Den CutL (unlessEmpty issues (W.fn Sym.System_Rule.name 2 ;> W.name (cs! "CodeParser`AbstractSyntaxIssues") ;>
      putIssues compat (issues.map full)))
      ((all (fun i => issueExpr compat (full i)) issues).map
        (listRule (.sym (cs! "CodeParser`AbstractSyntaxIssues")))) := by
    refine den_unlessEmpty Den.name ?_ (by rintro rfl; rfl) (all_length issues)
    have h := Den.listOf' (f := fun i => issueExpr compat (full i)) (w := fun i => (full i).put compat) issues
      fun i _ => den_issue compat (full i)
    rw [putIssues, List.length_map, List.map_map]
    exact h
  refine (Den.fn (h := cs! "System`Association") (n := (if includeSource compat (ofASrc source) then 1 else 0) + count issues)
    (h1.seq h3) ?_).congr ?_
  · intro es hes
    cases g1 : sourceRule compat (ofASrc source) with
    | none => simp [g1] at hes
    | some x =>
    cases g2 : all (fun i => issueExpr compat (full i)) issues with
    | none => simp [g1, g2] at hes
    | some y =>
    simp only [g1, g2, Option.map_some, Option.bind_eq_bind, Option.bind_some, Option.pure_def, Option.some.injEq] at hes
    subst hes
    rw [List.length_append, h2 x g1, listRule_length (all_length _ _ g2)]
  · have h4 : sourceRule compat (ofASrc source) = astSource source := by
      cases source <;> rfl
    rw [astData, h4]
    generalize astSource source = a
    generalize all (fun i => issueExpr compat (full i)) issues = b
    cases a <;> cases b <;> rfl

theorem asts_length : ∀ {compat : Bool} {full : AIssue → Wll.Issue} (as : List Ast) (es : List Expr),
    astsExpr compat full as = some es → es.length = as.length
  | _, _, [], _, h => by rw [astsExpr] at h; cases h; rfl
  | compat, full, a :: as, es, h => by
    rw [astsExpr] at h
    cases h1 : astExpr compat full a with
    | none => simp [h1] at h
    | some e =>
      cases h2 : astsExpr compat full as with
      | none => simp [h1, h2] at h
      | some es' =>
        simp [h1, h2] at h
        subst h
        simp [asts_length as es' h2]

theorem den_node {f : Sym} {h v : W} {n : Nat} {d : W} {o : Option Expr} {p : Option (List Expr)} {q : Option Expr}
    (hh : Den CutL h (o.map ([·]))) (hv : Den CutL v p) (hn : ∀ es, p = some es → es.length = n)
    (hd : Den CutL d (q.map ([·]))) :
    Den CutL (W.fn f.name 3 ;> h ;> W.fn Sym.System_List.name n ;> v ;> d)
      ((do return node f (← o) (list (← p)) (← q) : Option Expr).map ([·])) := by
  rw [← seq_assoc (W.fn Sym.System_List.name n)]
  refine (Den.three (h := f.name) hh (p := p.map list)
    ((Den.fn (h := cs! "System`List") hv hn).congr (by cases p <;> rfl)) hd).congr ?_
  cases o <;> cases p <;> cases q <;> rfl

mutual
theorem den_ast (compat : Bool) (full : AIssue → Wll.Issue) : ∀ a : Ast,
    Den CutL (Ast.put compat full a) ((astExpr compat full a).map ([·]))
  | .leaf k t d => by
    rw [Ast.put, astExpr]
    refine (Den.three Den.sym (den_text t) (den_astData compat full d)).congr ?_
    cases textExpr t <;> cases astData compat full d <;> rfl
  | .error k t d => by
    rw [Ast.put, astExpr]
    refine (Den.three Den.sym (den_text t) (den_astData compat full d)).congr ?_
    cases textExpr t <;> cases astData compat full d <;> rfl
  | .call h as d => by
    rw [Ast.put, astExpr]
    exact den_node (den_ast compat full h) (den_asts compat full as) (asts_length as) (den_astData compat full d)
  | .callMissing h as d => by
    rw [Ast.put, astExpr]
    exact den_node (den_ast compat full h) (den_asts compat full as) (asts_length as) (den_astData compat full d)
  | .syntaxError k as d => by
    rw [Ast.put, astExpr]
    exact (den_node Den.sym (den_asts compat full as) (asts_length as) (den_astData compat full d)).congr
      (by cases k <;> rfl)
  | .abstractError k as d => by
    rw [Ast.put, astExpr]
    exact (den_node Den.name (den_asts compat full as) (asts_length as) (den_astData compat full d)).congr
      (by cases k <;> rfl)
  | .missingCloser k as d => by
    rw [Ast.put, astExpr]
    exact den_node Den.sym (den_asts compat full as) (asts_length as) (den_astData compat full d)
  | .missingOpener k as d => by
    rw [Ast.put, astExpr]
    exact den_node Den.sym (den_asts compat full as) (asts_length as) (den_astData compat full d)
  | .linearBang a b d => by
    rw [Ast.put, astExpr]
    refine (den_node Den.sym ((den_ast compat full a).seq (den_ast compat full b)) (n := 2) ?_
      (den_astData compat full d)).congr ?_
    · intro es hes
      cases h1 : astExpr compat full a <;> cases h2 : astExpr compat full b <;> simp [h1, h2] at hes
      subst hes
      rfl
    · cases astExpr compat full a <;> cases astExpr compat full b <;> cases astData compat full d <;> rfl
theorem den_asts (compat : Bool) (full : AIssue → Wll.Issue) : ∀ as : List Ast,
    Den CutL (putAsts compat full as) (astsExpr compat full as)
  | [] => by rw [putAsts, astsExpr]; exact Den.nil
  | a :: as => by
    rw [putAsts, astsExpr]
    refine ((den_ast compat full a).seq (den_asts compat full as)).congr ?_
    cases astExpr compat full a <;> cases astsExpr compat full as <;> rfl
end

theorem den_eachUnless {α : Type} {f : α → Option Expr} {w : α → W} : ∀ (as : List α),
    (∀ a, Den CutL (w a) ((f a).map ([·]))) →
    Den CutList (W.each (as.map fun a => unlessAborted (w a))) (all f as)
  | [], _ => Den.items (es := []) CutList.nil
  | a :: as, h => by
    rw [all]
    exact den_unless (h a) (den_eachUnless as h)

theorem den_seqOf {α : Type} {f : α → Option Expr} {w : α → W} (as : List α)
    (h : ∀ a, Den CutL (w a) ((f a).map ([·]))) :
    Den CutL (W.fn Sym.System_List.name as.length ;> W.each (as.map fun a => unlessAborted (w a)))
      (((all f as).map list).map ([·])) :=
  den_list (den_eachUnless as h) (all_length as)

/-- What arrives. -/
theorem Den.get {w : W} {e : Expr} (h : Den CutL w ((some e).map ([·]))) (he : Full e) (ab : Nat → Bool) (k : Nat) :
    ∃ is k' e', w ab k = some (is, k') ∧ Wll.get is = some (e', []) ∧ Cut e e' ∧ (Never ab → e' = e) := by
  obtain ⟨es', k', h1, h2, h3, h4⟩ := h ab k
  cases h2 with
  | @cons _ e' _ _ hc hn =>
    cases hn
    refine ⟨_, k', e', h1, ?_, hc, fun h => (List.cons.inj (h4 h)).1⟩
    have : Expr.itemsL [e'] = e'.items := by simp [Expr.itemsL]
    rw [this]
    exact get_items (h3 ⟨he, trivial⟩).1

end CodeParser.LinkP
