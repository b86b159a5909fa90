import Verif.Proofs.Link5
/-!
Issues and containers are read back as they were written, continued.
-/
namespace CodeParser.LinkP
open CodeParser Wll Spec.Link

/-- What the source in an association is. -/
def sourceOpt (compat : Bool) (s : Source) : Option Expr := if omitted compat s then none else sourceExpr s

theorem sourceRule_opt {compat : Bool} {s : Source} {es : List Expr} (h : sourceRule compat s = some es) :
    es = optRule (.sym (cs! "CodeParser`Source")) (sourceOpt compat s) := by
  unfold sourceRule at h
  unfold sourceOpt
  split at h
  · next ho => cases h; rw [if_pos ho]; rfl
  · next ho =>
    rw [if_neg ho]
    cases h1 : sourceExpr s with
    | none => simp [h1] at h
    | some e => simp [h1] at h; subst h; rfl

theorem sourceOf_opt {compat : Bool} {kind : ContainerKind} {s : Source} {es : List Expr}
    (h : sourceRule compat s = some es) (hf : Fits compat kind s) :
    (match sourceOpt compat s with | some e => Wll.sourceOf kind e | none => .ok .unknown) = .ok (backSource compat s) := by
  unfold sourceRule at h
  unfold sourceOpt backSource
  cases ho : omitted compat s with
  | true => simp
  | false =>
    rw [ho] at h
    cases h1 : sourceExpr s with
    | none => simp [h1] at h
    | some e => simp [sourceOf_ok h1 hf ho]

/-- What a list in an association is. -/
def listOpt (es : List Expr) : Option Expr := if es.isEmpty then none else some (list es)

theorem listRule_opt (key : Expr) (es : List Expr) : listRule key es = optRule key (listOpt es) := by
  unfold listRule listOpt
  split <;> rfl

theorem listOpt_flat (es : List Expr) : (listOpt es).map flat = listOpt (flatL es) := by
  cases es with
  | nil => rfl
  | cons e es => simp [listOpt, flatL, flat_list]

theorem metaOf_fields {f64 : Int → Nat} {kind : ContainerKind} {n : Nat}
    {source issues confidence actions descs fileName tabs newlines simple complex : Option Expr} {e : Expr}
    (h : assocOf e = .ok (pairs (.sym (cs! "CodeParser`SyntaxIssues")) issues ++
      pairs (text (cs! "EmbeddedTabs")) tabs ++ pairs (text (cs! "EmbeddedNewlines")) newlines ++
      pairs (text (cs! "SimpleLineContinuations")) simple ++ pairs (text (cs! "ComplexLineContinuations")) complex ++
      pairs (.sym (cs! "CodeParser`Source")) source ++ pairs (.sym (cs! "System`ConfidenceLevel")) confidence ++
      pairs (.sym (cs! "CodeParser`CodeActions")) actions ++ pairs (text (cs! "AdditionalDescriptions")) descs ++
      pairs (text (cs! "FileName")) fileName))
    {s : Source} {is : Option (List Wll.Issue)} {c : Option Number} {as : Option (List Action)}
    {ds : Option (List (List UInt8))}
    (hs : (match source with | some e => Wll.sourceOf kind e | none => .ok .unknown) = .ok s)
    (hi : optR (listOf (issueOf f64 kind n)) issues = .ok is) (hc : optR numberOf confidence = .ok c)
    (ha : optR (listOf (actionOf f64 kind n)) actions = .ok as) (hd : optR (listOf strOf) descs = .ok ds) :
    metaOf f64 kind (n + 1) e = .ok ⟨s, is, c, as, ds, fileName, tabs, newlines, simple, complex⟩ := by
  rw [metaOf, h]
  simp only [bind, Except.bind, addAll_fields]
  cases source with
  | none => cases hs; simp only [hi, hc, ha, hd]; rfl
  | some e => simp only at hs; simp only [hs, hi, hc, ha, hd]; rfl

theorem strs_ok (ds : List (List UInt8)) : mapR strOf (ds.map Expr.str) = .ok ds := by
  induction ds with
  | nil => rfl
  | cons d ds ih => exact mapR_cons rfl ih

theorem flatL_strs (ds : List (List UInt8)) : flatL (ds.map Expr.str) = ds.map Expr.str := by
  induction ds with
  | nil => rfl
  | cons d ds ih => simp [flatL, ih, flat]

/-! ### Actions -/

theorem actionOf_ok (f64 : Int → Nat) {compat : Bool} {kind : ContainerKind} {a : Action} {e : Expr} {n : Nat}
    (h : actionExpr a = some e) (hf : FitsAction compat kind a) (hn : 2 ≤ n) : actionOf f64 kind n (flat e) = .ok a := by
  obtain ⟨n, rfl⟩ : ∃ m, n = m + 2 := ⟨n - 2, by omega⟩
  unfold actionExpr at h
  cases h1 : spanExpr a.src.1 a.src.2 with
  | none => simp [h1] at h
  | some x =>
  have hx := flat_span h1
  have hsrc : Wll.sourceOf kind x = .ok (.span a.src.1 a.src.2) := sourceOf_ok (compat := compat) h1 hf rfl
  have hS : flat (.sym (cs! "CodeParser`Source")) = .sym (cs! "CodeParser`Source") := rfl
  -- reading the association with another rule
  have key : ∀ (cs : List Char) (t : List UInt8), text cs = text (cs! "ReplacementText") ∨ text cs = text (cs! "InsertionText") →
      metaOf f64 kind (n + 1) (assoc [rule (.sym (cs! "CodeParser`Source")) x, rule (text cs) (.str t)]) =
        .ok { source := .span a.src.1 a.src.2 } := by
    intro cs t ht
    have hm : assocOf (assoc [rule (.sym (cs! "CodeParser`Source")) x, rule (text cs) (.str t)]) =
        .ok [(.sym (cs! "CodeParser`Source"), x), (text cs, .str t)] := by
      rw [assocOf_assoc]
      simp only [mapR, ruleOf_rule]
    have hadd : RawMeta.addAll {} [(.sym (cs! "CodeParser`Source"), x), (text cs, .str t)] = .ok { source := some x } := by
      have e1 : RawMeta.add {} (.sym (cs! "CodeParser`Source")) x = .ok { source := some x } := by simp [RawMeta.add]
      have e2 : RawMeta.add { source := some x } (text cs) (.str t) = .ok { source := some x } := by
        rcases ht with ht | ht <;> rw [ht]
        · have g1 : utf8 (cs! "ReplacementText") ≠ utf8 (cs! "EmbeddedTabs") := by decide
          have g2 : utf8 (cs! "ReplacementText") ≠ utf8 (cs! "EmbeddedNewlines") := by decide
          have g3 : utf8 (cs! "ReplacementText") ≠ utf8 (cs! "ComplexLineContinuations") := by decide
          have g4 : utf8 (cs! "ReplacementText") ≠ utf8 (cs! "SimpleLineContinuations") := by decide
          have g5 : utf8 (cs! "ReplacementText") ≠ utf8 (cs! "InsertionText") := by decide
          simp [RawMeta.add, text, g1, g2, g3, g4, g5]
        · have g1 : utf8 (cs! "InsertionText") ≠ utf8 (cs! "EmbeddedTabs") := by decide
          have g2 : utf8 (cs! "InsertionText") ≠ utf8 (cs! "EmbeddedNewlines") := by decide
          have g3 : utf8 (cs! "InsertionText") ≠ utf8 (cs! "ComplexLineContinuations") := by decide
          have g4 : utf8 (cs! "InsertionText") ≠ utf8 (cs! "SimpleLineContinuations") := by decide
          simp [RawMeta.add, text, g1, g2, g3, g4]
      simp only [RawMeta.addAll, e1, e2]
    rw [metaOf, hm]
    simp only [bind, Except.bind, hadd, hsrc]
    rfl
  obtain ⟨label, akind, src⟩ := a
  cases akind with
  | delete =>
    simp [h1] at h
    subst h
    have hfl : flat (assoc [assoc [rule (.sym (cs! "CodeParser`Source")) x]]) =
        assoc [rule (.sym (cs! "CodeParser`Source")) x] := by
      simp only [flat_assoc, flatL, flat_rule, hx, hS, List.flatMap_cons, List.flatMap_nil, splice_rule]
      simp [assoc, splice]
    have hm : metaOf f64 kind (n + 1) (assoc [rule (.sym (cs! "CodeParser`Source")) x]) =
        .ok { source := .span src.1 src.2 } := by
      have : dataExpr compat (.span src.1 src.2) = some (assoc [rule (.sym (cs! "CodeParser`Source")) x]) := by
        simp only [dataExpr, sourceRule, omitted, sourceExpr]
        simp only at h1
        rw [h1]
        rfl
      exact metaOf_data this hf (by omega)
    have hr : assocOf (assoc [rule (.sym (cs! "CodeParser`Source")) x]) = .ok [(.sym (cs! "CodeParser`Source"), x)] := by
      rw [assocOf_assoc]; simp only [mapR, ruleOf_rule]
    rw [flat_node (by decide), hfl, actionOf]
    simp only [bind, Except.bind, three_eq, flat, expect, hr, hm]
    simp [actionKindOf, pure, Except.pure]
  | replace t =>
    simp [h1] at h
    subst h
    have hfl : flat (assoc [assoc [rule (.sym (cs! "CodeParser`Source")) x], rule (text (cs! "ReplacementText")) (.str t)]) =
        assoc [rule (.sym (cs! "CodeParser`Source")) x, rule (text (cs! "ReplacementText")) (.str t)] := by
      have hT : flat (text (cs! "ReplacementText")) = text (cs! "ReplacementText") := rfl
      have hU : flat (.str t) = .str t := rfl
      simp only [flat_assoc, flatL, flat_rule, hx, hS, hT, hU, List.flatMap_cons, List.flatMap_nil, splice_rule]
      simp [assoc, splice]
    have hr : assocOf (assoc [rule (.sym (cs! "CodeParser`Source")) x, rule (text (cs! "ReplacementText")) (.str t)]) =
        .ok [(.sym (cs! "CodeParser`Source"), x), (text (cs! "ReplacementText"), .str t)] := by
      rw [assocOf_assoc]; simp only [mapR, ruleOf_rule]
    rw [flat_node (by decide), hfl, actionOf]
    simp only [bind, Except.bind, three_eq, flat, expect, hr, key _ t (.inl rfl)]
    simp [actionKindOf, pure, Except.pure, lookupText, text, bind, Except.bind]
  | insert t =>
    simp [h1] at h
    subst h
    have hfl : flat (assoc [assoc [rule (.sym (cs! "CodeParser`Source")) x], rule (text (cs! "InsertionText")) (.str t)]) =
        assoc [rule (.sym (cs! "CodeParser`Source")) x, rule (text (cs! "InsertionText")) (.str t)] := by
      have hT : flat (text (cs! "InsertionText")) = text (cs! "InsertionText") := rfl
      have hU : flat (.str t) = .str t := rfl
      simp only [flat_assoc, flatL, flat_rule, hx, hS, hT, hU, List.flatMap_cons, List.flatMap_nil, splice_rule]
      simp [assoc, splice]
    have hr : assocOf (assoc [rule (.sym (cs! "CodeParser`Source")) x, rule (text (cs! "InsertionText")) (.str t)]) =
        .ok [(.sym (cs! "CodeParser`Source"), x), (text (cs! "InsertionText"), .str t)] := by
      rw [assocOf_assoc]; simp only [mapR, ruleOf_rule]
    rw [flat_node (by decide), hfl, actionOf]
    simp only [bind, Except.bind, three_eq, flat, expect, hr, key _ t (.inr rfl)]
    simp [actionKindOf, pure, Except.pure, lookupText, text, bind, Except.bind]

theorem mapR_all {α : Type} {f : α → Option Expr} {r : Expr → R β} {g : α → β} : ∀ (as : List α) {es : List Expr},
    all f as = some es → (∀ a ∈ as, ∀ e, f a = some e → r (flat e) = .ok (g a)) →
    mapR r (flatL es) = .ok (as.map g)
  | [], _, h, _ => by cases h; rfl
  | a :: as, es, h, hr => by
    rw [all] at h
    simp only [Option.bind_eq_bind, Option.bind_eq_some_iff, Option.pure_def, Option.some.injEq] at h
    obtain ⟨x, h1, y, h2, rfl⟩ := h
    exact mapR_cons (hr a List.mem_cons_self x h1) (mapR_all as h2 fun b hb => hr b (List.mem_cons_of_mem _ hb))

/-! ### Issues -/

theorem tag_back (t : IssueTag) : IssueTag.ofText (utf8 t.text) = some t := by cases t <;> decide +kernel

theorem severity_back (s : Severity) : Severity.ofText (utf8 s.text) = some s := by cases s <;> decide +kernel

theorem flat_issue_data {compat : Bool} {i : Wll.Issue} {d : Expr} {ss y : List Expr}
    (hd : sourceRule compat i.src = some ss) (hde : dataExpr compat i.src = some d) (hs : i.sources = []) :
    flat (assoc ([d, rule (.sym (cs! "System`ConfidenceLevel")) (.real i.val)] ++
      listRule (.sym (cs! "CodeParser`CodeActions")) y ++
      listRule (text (cs! "AdditionalDescriptions")) (i.descs.map .str) ++
      listRule (text (cs! "AdditionalSources")) [])) =
    assoc (optRule (.sym (cs! "CodeParser`Source")) (sourceOpt compat i.src) ++
      optRule (.sym (cs! "System`ConfidenceLevel")) (some (.real i.val)) ++
      optRule (.sym (cs! "CodeParser`CodeActions")) (listOpt (flatL y)) ++
      optRule (text (cs! "AdditionalDescriptions")) (listOpt (i.descs.map .str))) := by
  have hdd : d = assoc ss := by
    rw [dataExpr, hd] at hde
    exact (Option.some.inj hde).symm
  have e1 : (flatL [d, rule (.sym (cs! "System`ConfidenceLevel")) (.real i.val)]).flatMap splice =
      ss ++ optRule (.sym (cs! "System`ConfidenceLevel")) (some (.real i.val)) := by
    have hr : flat (rule (.sym (cs! "System`ConfidenceLevel")) (.real i.val)) =
        rule (.sym (cs! "System`ConfidenceLevel")) (.real i.val) := rfl
    simp only [flatL, flat_data hde, hr, List.flatMap_cons, List.flatMap_nil, splice_rule]
    rw [hdd]
    simp [assoc, splice, optRule]
  rw [flat_assoc, flatL_append, flatL_append, flatL_append, List.flatMap_append, List.flatMap_append,
    List.flatMap_append, e1, listRule_opt, listRule_opt, flat_optRule rfl, flat_optRule rfl, listOpt_flat, listOpt_flat,
    flatL_strs, sourceRule_opt hd]
  have : (flatL (listRule (text (cs! "AdditionalSources")) [])).flatMap splice = [] := rfl
  rw [this, List.append_nil]

theorem issueOf_ok (f64 : Int → Nat) {compat : Bool} {kind : ContainerKind} {i : Wll.Issue} {e : Expr} {n : Nat}
    (h : issueExpr compat i = some e) (hf : FitsIssue compat kind i) (hn : 4 ≤ n) :
    issueOf f64 kind n (flat e) = .ok (backIssue compat i) := by
  obtain ⟨n, rfl⟩ : ∃ m, n = m + 4 := ⟨n - 4, by omega⟩
  obtain ⟨hmake, hsrc, hact, hso⟩ := hf
  unfold issueExpr at h
  simp only [Option.bind_eq_bind, Option.bind_eq_some_iff, Option.pure_def, Option.some.injEq] at h
  obtain ⟨d, h1, y, h2, z, h3, rfl⟩ := h
  have hz : z = [] := by
    rw [hso] at h3
    cases h3
    rfl
  subst hz
  have hd := h1
  unfold dataExpr at hd
  simp only [Option.bind_eq_bind, Option.bind_eq_some_iff, Option.pure_def, Option.some.injEq] at hd
  obtain ⟨ss, hss, -⟩ := hd
  have hmk : i.make ≠ .System_Association := by rcases hmake with h | h | h <;> rw [h] <;> decide
  rw [flat_normal hmk]
  simp only [flatL]
  rw [flat_issue_data hss h1 hso]
  have hacts : mapR (actionOf f64 kind (n + 2)) (flatL y) = .ok i.actions := by
    have := mapR_all (r := actionOf f64 kind (n + 2)) (g := id) i.actions h2
      fun a ha e he => actionOf_ok f64 he (hact a ha) (by omega)
    simpa using this
  have hm : metaOf f64 kind (n + 3) (assoc (optRule (.sym (cs! "CodeParser`Source")) (sourceOpt compat i.src) ++
      optRule (.sym (cs! "System`ConfidenceLevel")) (some (.real i.val)) ++
      optRule (.sym (cs! "CodeParser`CodeActions")) (listOpt (flatL y)) ++
      optRule (text (cs! "AdditionalDescriptions")) (listOpt (i.descs.map .str)))) =
      .ok { source := backSource compat i.src, confidence := some (.real i.val),
            actions := if i.actions.isEmpty then none else some i.actions,
            descs := if i.descs.isEmpty then none else some i.descs } := by
    refine metaOf_fields (issues := none) (tabs := none) (newlines := none) (simple := none) (complex := none)
      (source := sourceOpt compat i.src) (confidence := some (.real i.val)) (actions := listOpt (flatL y))
      (descs := listOpt (i.descs.map .str)) (fileName := none) ?_ (sourceOf_opt hss hsrc) rfl rfl ?_ ?_
    · rw [assocOf_assoc, mapR_append (mapR_append (mapR_append (ruleOf_optRule _ _) (ruleOf_optRule _ _))
        (ruleOf_optRule _ _)) (ruleOf_optRule _ _)]
      simp [pairs]
    · have hl := all_length _ _ h2
      cases hy : i.actions with
      | nil =>
        rw [hy] at hl
        cases y with
        | nil => rfl
        | cons _ _ => cases hl
      | cons a as =>
        rw [hy] at hl
        cases y with
        | nil => cases hl
        | cons b bs =>
          have ho : listOpt (flatL (b :: bs)) = some (list (flatL (b :: bs))) := rfl
          rw [ho, optR, listOf_list, hacts, hy]
          rfl
    · cases hy : i.descs with
      | nil => rfl
      | cons a as =>
        have ho : listOpt ((a :: as).map Expr.str) = some (list ((a :: as).map Expr.str)) := rfl
        rw [ho, optR, listOf_list, strs_ok]
        rfl
  have hhead : issueHead i.make.name = .ok i.make := by
    rcases hmake with h | h | h <;> rw [h] <;> decide +kernel
  have ht := tag_back i.tag
  have hsev := severity_back i.sev
  have c1 : flat (text i.tag.text) = .str (utf8 i.tag.text) := rfl
  have c2 : flat (.str i.msg) = .str i.msg := rfl
  have c3 : flat (text i.sev.text) = .str (utf8 i.sev.text) := rfl
  rw [c1, c2, c3]
  simp only [symbol]
  rw [issueOf]
  simp only [bind, Except.bind, hhead, hm, expect, ht, hsev, someOr]
  obtain ⟨make, tag, msg, sev, src, val, actions, descs, sources⟩ := i
  simp only at hso
  subst hso
  have e1 : (if actions.isEmpty then none else some actions : Option (List Action)).getD [] = actions := by
    cases actions <;> rfl
  have e2 : (if descs.isEmpty then none else some descs : Option (List (List UInt8))).getD [] = descs := by
    cases descs <;> rfl
  simp only [e1, e2, backIssue]
  rfl

/-! ### Containers -/

theorem optExpr_map {α : Type} {f : α → Option Expr} {x : Option α} {y : Option Expr} (h : optExpr f x = some y) :
    x = none ∧ y = none ∨ ∃ a e, x = some a ∧ y = some e ∧ f a = some e := by
  cases x with
  | none => cases h; exact .inl ⟨rfl, rfl⟩
  | some a =>
    rw [optExpr] at h
    cases g : f a with
    | none => simp [g] at h
    | some e => simp [g] at h; subst h; exact .inr ⟨a, e, rfl, rfl, g⟩

theorem metaOf_ok (f64 : Int → Nat) {compat : Bool} {kind : ContainerKind} {m : Meta} {e : Expr} {n : Nat}
    (h : metaExpr compat m = some e) (hf : FitsMeta compat kind m) (hn : 1 ≤ n) (hi : m.issues.isSome → 5 ≤ n)
    (ha : m.actions.isSome → 3 ≤ n) : metaOf f64 kind n (flat e) = .ok (backMeta compat m) := by
  obtain ⟨n, rfl⟩ : ∃ m, n = m + 1 := ⟨n - 1, by omega⟩
  obtain ⟨source, issues, confidence, actions, descs, fileName, tabs, newlines, simple, complex⟩ := m
  obtain ⟨hsrc, hiss, hact, hco⟩ := hf
  simp only at hsrc hiss hact hco hi ha
  subst hco
  unfold metaExpr at h
  cases h1 : optExpr (issuesExpr compat) issues with
  | none => simp [h1] at h
  | some x =>
  cases h2 : sourceRule compat source with
  | none => simp [h1, h2] at h
  | some y =>
  cases h3 : optExpr (fun as => do return list (← all actionExpr as)) actions with
  | none => simp only at h; rw [h1, h2, h3] at h; simp at h
  | some z =>
  simp only at h
  rw [h1, h2, h3] at h
  simp only [Option.bind_eq_bind, Option.bind_some, Option.pure_def, Option.some.injEq, Option.map_none,
    Option.toList_none, List.append_nil] at h
  subst h
  have hA : assocOf (flat (assoc (optRule (.sym (cs! "CodeParser`SyntaxIssues")) x ++
      optRule (text (cs! "EmbeddedTabs")) tabs ++ optRule (text (cs! "EmbeddedNewlines")) newlines ++
      optRule (text (cs! "SimpleLineContinuations")) simple ++
      optRule (text (cs! "ComplexLineContinuations")) complex ++ y ++
      optRule (.sym (cs! "CodeParser`CodeActions")) z ++
      optRule (text (cs! "AdditionalDescriptions")) (descs.map fun ds => list (ds.map .str)) ++
      optRule (text (cs! "FileName")) fileName))) =
    .ok (pairs (.sym (cs! "CodeParser`SyntaxIssues")) (x.map flat) ++
      pairs (text (cs! "EmbeddedTabs")) (tabs.map flat) ++ pairs (text (cs! "EmbeddedNewlines")) (newlines.map flat) ++
      pairs (text (cs! "SimpleLineContinuations")) (simple.map flat) ++
      pairs (text (cs! "ComplexLineContinuations")) (complex.map flat) ++
      pairs (.sym (cs! "CodeParser`Source")) (sourceOpt compat source) ++
      pairs (.sym (cs! "System`ConfidenceLevel")) none ++
      pairs (.sym (cs! "CodeParser`CodeActions")) (z.map flat) ++
      pairs (text (cs! "AdditionalDescriptions")) (descs.map fun ds => list (ds.map .str)) ++
      pairs (text (cs! "FileName")) (fileName.map flat)) := by
    have hds : (descs.map fun ds => list (ds.map Expr.str)).map flat = descs.map fun ds => list (ds.map Expr.str) := by
      cases descs with
      | none => rfl
      | some ds => simp [flat_list, flatL_strs]
    rw [flat_assoc]
    simp only [flatL_append, List.flatMap_append]
    rw [flat_optRule rfl, flat_optRule rfl, flat_optRule rfl, flat_optRule rfl, flat_optRule rfl, flat_optRule rfl,
      flat_optRule rfl, flat_optRule rfl, (flat_sourceRule h2).1, (flat_sourceRule h2).2, hds, sourceRule_opt h2,
      assocOf_assoc]
    rw [mapR_append (mapR_append (mapR_append (mapR_append (mapR_append (mapR_append (mapR_append (mapR_append
      (ruleOf_optRule _ _) (ruleOf_optRule _ _)) (ruleOf_optRule _ _)) (ruleOf_optRule _ _)) (ruleOf_optRule _ _))
      (ruleOf_optRule _ _)) (ruleOf_optRule _ _)) (ruleOf_optRule _ _)) (ruleOf_optRule _ _)]
    simp [pairs]
  refine (metaOf_fields hA (sourceOf_opt h2 hsrc) (is := issues.map fun is => is.map (backIssue compat)) ?_
    (c := none) rfl (as := actions) ?_ (ds := descs) ?_).trans rfl
  · rcases optExpr_map h1 with ⟨rfl, rfl⟩ | ⟨is, e, rfl, rfl, he⟩
    · rfl
    · unfold issuesExpr at he
      simp only [Option.bind_eq_bind, Option.bind_eq_some_iff, Option.pure_def, Option.some.injEq] at he
      obtain ⟨es, g, rfl⟩ := he
      have hn' := hi rfl
      have := mapR_all (r := issueOf f64 kind n) (g := backIssue compat) is g
        fun i hi' e he => issueOf_ok f64 he (hiss is rfl i hi') (by omega)
      simp only [Option.map_some, optR, flat_list, listOf_list, this]
  · rcases optExpr_map h3 with ⟨rfl, rfl⟩ | ⟨is, e, rfl, rfl, he⟩
    · rfl
    · simp only [Option.bind_eq_bind, Option.bind_eq_some_iff, Option.pure_def, Option.some.injEq] at he
      obtain ⟨es, g, rfl⟩ := he
      have hn' := ha rfl
      have := mapR_all (r := actionOf f64 kind n) (g := id) is g
        fun i hi' e he => actionOf_ok f64 he (hact is rfl i hi') (by omega)
      simp only [Option.map_some, optR, flat_list, listOf_list, this, List.map_id]
  · cases descs with
    | none => rfl
    | some ds => simp only [Option.map_some, optR, listOf_list, strs_ok]

theorem sizeL_append : ∀ (as bs : List Expr), Expr.sizeL (as ++ bs) = Expr.sizeL as + Expr.sizeL bs
  | [], _ => by simp [Expr.sizeL]
  | a :: as, bs => by simp [Expr.sizeL, sizeL_append as bs]; omega

theorem size_assoc {es : List Expr} : (assoc es).size = 2 + Expr.sizeL es := by simp [assoc, Expr.size]

theorem size_optRule {k e : Expr} : 4 ≤ Expr.sizeL (optRule k (some e)) := by
  have h1 := size_pos k
  have h2 := size_pos e
  simp [optRule, Expr.sizeL, rule, Expr.size]
  omega

theorem size_meta {compat : Bool} {m : Meta} {e : Expr} (h : metaExpr compat m = some e)
    (hi : m.issues.isSome ∨ m.actions.isSome) : 6 ≤ (flat e).size := by
  unfold metaExpr at h
  cases h1 : optExpr (issuesExpr compat) m.issues with
  | none => simp [h1] at h
  | some x =>
  cases h2 : sourceRule compat m.source with
  | none => simp [h1, h2] at h
  | some y =>
  cases h3 : optExpr (fun as => do return list (← all actionExpr as)) m.actions with
  | none => rw [h1, h2, h3] at h; simp at h
  | some z =>
  rw [h1, h2, h3] at h
  simp only [Option.bind_eq_bind, Option.bind_some, Option.pure_def, Option.some.injEq] at h
  subst h
  rw [flat_assoc, size_assoc]
  simp only [flatL_append, List.flatMap_append, sizeL_append]
  rcases hi with hi | hi
  · rcases optExpr_map h1 with ⟨hx, -⟩ | ⟨is, e, -, rfl, -⟩
    · rw [hx] at hi; cases hi
    · rw [flat_optRule rfl, Option.map_some]
      have := @size_optRule (.sym (cs! "CodeParser`SyntaxIssues")) (flat e)
      omega
  · rcases optExpr_map h3 with ⟨hx, -⟩ | ⟨is, e, -, rfl, -⟩
    · rw [hx] at hi; cases hi
    · have hr : (flatL (optRule (.sym (cs! "CodeParser`CodeActions")) (some e))).flatMap splice =
          optRule (.sym (cs! "CodeParser`CodeActions")) (some (flat e)) := flat_optRule rfl
      rw [hr]
      have := @size_optRule (.sym (cs! "CodeParser`CodeActions")) (flat e)
      omega

theorem kind_back (k : ContainerKind) : containerKindOf (.sym (kindName k)) = .ok k := by
  cases k <;> decide +kernel

theorem unsafe_back (u : Unsafe) :
    Unsafe.ofMissingReason (utf8 (cs! "UnsafeCharacterEncoding_" ++ u.text)) = some u := by
  cases u <;> decide +kernel

theorem mapR_congr {α β : Type} {f g : α → R β} : ∀ (as : List α), (∀ a ∈ as, f a = g a) → mapR f as = mapR g as
  | [], _ => rfl
  | a :: as, h => by
    rw [mapR, mapR, h a List.mem_cons_self, mapR_congr as fun b hb => h b (List.mem_cons_of_mem _ hb)]

theorem readTrees_ok (f64 : Int → Nat) {compat : Bool} {kind : ContainerKind} : ∀ {cs : List Tree} {es : List Expr},
    treesExpr compat cs = some es → Propers compat kind cs →
    mapR (readTree f64 kind) es = .ok (backs compat cs)
  | [], _, h, _ => by rw [treesExpr] at h; cases h; rfl
  | c :: cs, es, h, hp => by
    rw [treesExpr] at h
    simp only [Option.bind_eq_bind, Option.bind_eq_some_iff, Option.pure_def, Option.some.injEq] at h
    obtain ⟨x, h1, y, h2, rfl⟩ := h
    exact mapR_cons (treeOf_ok f64 h1 hp.1 (Nat.le_refl _)) (readTrees_ok f64 h2 hp.2)

theorem treeExpr_missing {compat : Bool} {t : Tree} {e : Expr} (h : treeExpr compat t = some e) :
    withHead e .System_Missing = bad := by
  have : ∃ s a b c, e = node s a b c ∧ s ≠ .System_Missing := by
    cases t with
    | leaf k t s =>
      rw [treeExpr, tokenExpr] at h
      simp only [Option.bind_eq_bind, Option.bind_eq_some_iff, Option.pure_def, Option.some.injEq] at h
      obtain ⟨x, h1, d, h2, rfl⟩ := h
      exact ⟨_, _, _, _, rfl, by split <;> decide⟩
    | node k cs =>
      rw [treeExpr] at h
      simp only [Option.bind_eq_bind, Option.bind_eq_some_iff, Option.pure_def, Option.some.injEq] at h
      obtain ⟨es, h1, s, h2, d, h3, rfl⟩ := h
      exact ⟨_, _, _, _, rfl, by cases k <;> simp [nodeHead]⟩
    | call hd m op b =>
      rw [treeExpr] at h
      simp only [Option.bind_eq_bind, Option.bind_eq_some_iff, Option.pure_def, Option.some.injEq] at h
      obtain ⟨_, _, _, _, _, _, _, _, _, _, _, _, rfl⟩ := h
      exact ⟨_, _, _, _, rfl, by decide⟩
    | callAgg hd m op b =>
      rw [treeExpr] at h
      simp only [Option.bind_eq_bind, Option.bind_eq_some_iff, Option.pure_def, Option.some.injEq] at h
      obtain ⟨_, _, _, _, _, _, _, _, _, _, _, _, rfl⟩ := h
      exact ⟨_, _, _, _, rfl, by decide⟩
    | box kind cs s =>
      rw [treeExpr] at h
      simp only [Option.bind_eq_bind, Option.bind_eq_some_iff, Option.pure_def, Option.some.injEq] at h
      obtain ⟨_, _, _, _, rfl⟩ := h
      exact ⟨_, _, _, _, rfl, by decide⟩
    | code a b s =>
      rw [treeExpr] at h
      simp only [Option.bind_eq_bind, Option.bind_eq_some_iff, Option.pure_def, Option.some.injEq] at h
      obtain ⟨_, _, rfl⟩ := h
      exact ⟨_, _, _, _, rfl, by decide⟩
  obtain ⟨s, a, b, c, rfl, hne⟩ := this
  exact withHead_ne hne _

theorem bodyOf_nodes (f64 : Int → Nat) {compat : Bool} {kind : ContainerKind} {cs : List Tree} {es : List Expr}
    (h : treesExpr compat cs = some es) (hp : Propers compat kind cs) :
    bodyOf (readTree f64 kind) (list es) = .ok (.nodes (backs compat cs)) := by
  have hn : (do return .nodes (← listOf (readTree f64 kind) (list es)) : R Body) = .ok (.nodes (backs compat cs)) := by
    rw [listOf_list, readTrees_ok f64 h hp]
    rfl
  have hl : withHead (list es) .System_List = .ok es := withHead_eq .System_List es
  rw [bodyOf, hl]
  cases cs with
  | nil => rw [treesExpr] at h; cases h; exact hn
  | cons c cs =>
    rw [treesExpr] at h
    simp only [Option.bind_eq_bind, Option.bind_eq_some_iff, Option.pure_def, Option.some.injEq] at h
    obtain ⟨x, h1, y, h2, rfl⟩ := h
    cases y with
    | nil => simp only [treeExpr_missing h1, bad]; exact hn
    | cons _ _ => exact hn

theorem containerOf_ok (f64 : Int → Nat) {compat : Bool} {c : Container} {e : Expr}
    (h : containerExpr compat c = some e) (hf : FitsContainer compat c) :
    containerOf f64 (flat e) = .ok (backContainer compat c) := by
  unfold containerExpr at h
  simp only [Option.bind_eq_bind, Option.bind_eq_some_iff, Option.pure_def, Option.some.injEq] at h
  obtain ⟨b, h1, d, h2, rfl⟩ := h
  have hm : metaOf f64 c.kind (flat d).size (flat d) = .ok (backMeta compat c.data) := by
    refine metaOf_ok f64 h2 hf.2 (size_pos _) ?_ ?_
    · intro hi; have := size_meta h2 (.inl hi); omega
    · intro hi; have := size_meta h2 (.inr hi); omega
  have hk : flat (.sym (kindName c.kind)) = .sym (kindName c.kind) := rfl
  have hb : bodyOf (readTree f64 c.kind) (flat b) = .ok (backContainer compat c).body := by
    obtain ⟨kind, body, data⟩ := c
    cases body with
    | nodes ts =>
      simp only [containerBody, Option.bind_eq_bind, Option.bind_eq_some_iff, Option.pure_def, Option.some.injEq] at h1
      obtain ⟨es, g, rfl⟩ := h1
      rw [flat_list]
      exact bodyOf_nodes f64 (flat_trees g) (propers_flat hf.1)
    | emptyInput =>
      cases h1
      rfl
    | encoding u =>
      cases h1
      have hfl : flat (missingExpr (cs! "UnsafeCharacterEncoding_" ++ u.text)) =
          list [.normal (symbol .System_Missing) [.str (utf8 (cs! "UnsafeCharacterEncoding_" ++ u.text))]] := by
        simp [missingExpr, flat, flatL, list, text, symbol, Sym.name]
      rw [hfl]
      have hl : ∀ es, withHead (list es) .System_List = .ok es := fun es => withHead_eq .System_List es
      have hne : utf8 (cs! "UnsafeCharacterEncoding_" ++ u.text) ≠ utf8 (cs! "EmptyInput") := by
        cases u <;> decide +kernel
      rw [bodyOf, hl]
      simp only [withHead_eq, if_neg hne, unsafe_back]
      rfl
  rw [flat_node (by decide), hk, containerOf]
  simp only [bind, Except.bind, three_eq, kind_back, hb, expect, hm]
  rfl

end CodeParser.LinkP
