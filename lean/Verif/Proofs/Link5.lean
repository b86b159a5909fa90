import Verif.Proofs.Link4
/-!
Issues and containers are read back as they were written.
-/
namespace CodeParser.LinkP
open CodeParser Wll Spec.Link

/-! ### Evaluation -/

theorem flat_list (es : List Expr) : flat (list es) = list (flatL es) := by
  simp [list, flat]

theorem flat_rule (a b : Expr) : flat (rule a b) = rule (flat a) (flat b) := by
  simp [rule, flat, flatL]

theorem flat_assoc (es : List Expr) : flat (assoc es) = assoc ((flatL es).flatMap splice) := by
  simp [assoc, flat]

theorem name_assoc {s : Sym} (h : s ≠ .System_Association) : s.name ≠ cs! "System`Association" :=
  fun e => h (name_inj (t := .System_Association) e)

theorem flat_normal {s : Sym} (h : s ≠ .System_Association) (es : List Expr) :
    flat (.normal (symbol s) es) = .normal (symbol s) (flatL es) := by
  simp only [symbol, flat, if_neg (name_assoc h)]

theorem flat_node {s : Sym} (h : s ≠ .System_Association) (a b c : Expr) :
    flat (node s a b c) = node s (flat a) (flat b) (flat c) := by
  rw [node, flat_normal h]
  rfl

theorem flat_symbol (s : Sym) : flat (symbol s) = symbol s := rfl

theorem flatL_append : ∀ (as bs : List Expr), flatL (as ++ bs) = flatL as ++ flatL bs
  | [], _ => rfl
  | a :: as, bs => by simp [flatL, flatL_append as bs]

theorem splice_rule (a b : Expr) : splice (rule a b) = [rule a b] := by
  simp [rule, splice]

theorem flat_index {n : Nat} {e : Expr} (h : indexExpr n = some e) : flat e = e := by
  unfold indexExpr at h
  split at h <;> cases h
  rfl

theorem flatL_all {α : Type} {f g : α → Option Expr} : ∀ (as : List α) {es : List Expr}, all f as = some es →
    (∀ a ∈ as, ∀ e, f a = some e → flat e = e) → flatL es = es
  | [], _, h, _ => by cases h; rfl
  | a :: as, es, h, hf => by
    rw [all] at h
    cases h1 : f a with
    | none => simp [h1] at h
    | some e =>
    cases h2 : all f as with
    | none => simp [h1, h2] at h
    | some es' =>
    simp [h1, h2] at h
    subst h
    rw [flatL, hf a List.mem_cons_self e h1, flatL_all (g := g) as h2 fun b hb => hf b (List.mem_cons_of_mem _ hb)]

theorem flat_indices {ix : List Nat} {es : List Expr} (h : all indexExpr ix = some es) : flatL es = es :=
  flatL_all (g := indexExpr) ix h fun _ _ _ => flat_index

theorem flat_span {a b : Loc} {e : Expr} (h : spanExpr a b = some e) : flat e = e := by
  unfold spanExpr at h
  split at h <;> cases h <;> simp [list, nat, flat, flatL]

theorem flat_pos {p : BoxPos} {e : Expr} (h : posExpr p = some e) : flat e = e := by
  cases p with
  | «at» ix =>
    rw [posExpr] at h
    simp only [Option.bind_eq_bind, Option.bind_eq_some_iff, Option.pure_def, Option.some.injEq] at h
    obtain ⟨es, h1, rfl⟩ := h
    rw [flat_list, flat_indices h1]
  | spanning ix a b =>
    rw [posExpr] at h
    simp only [Option.bind_eq_bind, Option.bind_eq_some_iff, Option.pure_def, Option.some.injEq] at h
    obtain ⟨es, h1, x, h2, y, h3, rfl⟩ := h
    rw [flat_list, flatL_append, flat_indices h1]
    simp [flatL, flat, flat_index h2, flat_index h3]
  | before ix =>
    rw [posExpr] at h
    simp only [Option.bind_eq_bind, Option.bind_eq_some_iff, Option.pure_def, Option.some.injEq] at h
    obtain ⟨es, h1, rfl⟩ := h
    simp [flatL, flat, list, flat_indices h1]
  | after ix =>
    rw [posExpr] at h
    simp only [Option.bind_eq_bind, Option.bind_eq_some_iff, Option.pure_def, Option.some.injEq] at h
    obtain ⟨es, h1, rfl⟩ := h
    simp [flatL, flat, list, flat_indices h1]

theorem flat_source {s : Source} {e : Expr} (h : sourceExpr s = some e) : flat e = e := by
  cases s with
  | unknown => cases h
  | span a b => exact flat_span h
  | box p => exact flat_pos h

theorem flat_sourceRule {compat : Bool} {s : Source} {es : List Expr} (h : sourceRule compat s = some es) :
    flatL es = es ∧ es.flatMap splice = es := by
  unfold sourceRule at h
  split at h
  · cases h; exact ⟨rfl, rfl⟩
  · cases h1 : sourceExpr s with
    | none => simp [h1] at h
    | some e =>
      simp [h1] at h
      subst h
      have hs : flat (.sym (cs! "CodeParser`Source")) = .sym (cs! "CodeParser`Source") := rfl
      exact ⟨by simp only [flatL, flat_rule, flat_source h1, hs], by simp [splice_rule]⟩

theorem flat_data {compat : Bool} {s : Source} {d : Expr} (h : dataExpr compat s = some d) : flat d = d := by
  unfold dataExpr at h
  simp only [Option.bind_eq_bind, Option.bind_eq_some_iff, Option.pure_def, Option.some.injEq] at h
  obtain ⟨es, h1, rfl⟩ := h
  rw [flat_assoc, (flat_sourceRule h1).1, (flat_sourceRule h1).2]

mutual
theorem source_flat : ∀ t : Tree, (flatTree t).source = t.source
  | .leaf _ _ _ => rfl
  | .node _ cs => by rw [flatTree, Tree.source, Tree.source, seqSource_flat cs]
  | .call h _ _ b => by rw [flatTree, Tree.source, Tree.source, seqSource_flat b, firstSource_flat h]
  | .callAgg h _ _ b => by rw [flatTree, Tree.source, Tree.source, seqSource_flat b, source_flat h]
  | .box _ _ _ => by rw [flatTree, Tree.source, Tree.source]
  | .code _ _ _ => by rw [flatTree, Tree.source, Tree.source]
theorem seqSource_flat : ∀ cs : List Tree, seqSource (flatTrees cs) = seqSource cs
  | [] => rfl
  | c :: cs => by rw [flatTrees, seqSource, seqSource, source_flat c, lastSource_flat c.source cs]
theorem firstSource_flat : ∀ cs : List Tree, firstSource (flatTrees cs) = firstSource cs
  | [] => rfl
  | c :: cs => by rw [flatTrees, firstSource, firstSource, source_flat c]
theorem lastSource_flat : ∀ (o : Option Source) (cs : List Tree), lastSource o (flatTrees cs) = lastSource o cs
  | _, [] => rfl
  | _, c :: cs => by rw [flatTrees, lastSource, lastSource, source_flat c, lastSource_flat c.source cs]
end

theorem nodeHead_assoc (k : NodeKind) : nodeHead k ≠ .System_Association := by cases k <;> simp [nodeHead]

theorem flat_body {m : Bool} {op : CallOp} {es : List Expr} {d : Expr} :
    flat (bodyExpr m op (list es) d) = bodyExpr m op (list (flatL es)) (flat d) := by
  rw [bodyExpr, flat_node (by split <;> decide), flat_symbol, flat_list, bodyExpr]

mutual
theorem flat_tree {compat : Bool} : ∀ {t : Tree} {e : Expr}, treeExpr compat t = some e →
    treeExpr compat (flatTree t) = some (flat e)
  | .leaf k t s, e, h => by
    rw [treeExpr, tokenExpr] at h
    simp only [Option.bind_eq_bind, Option.bind_eq_some_iff, Option.pure_def, Option.some.injEq] at h
    obtain ⟨x, h1, d, h2, rfl⟩ := h
    have hx : flat x = x := by
      unfold textExpr at h1
      split at h1 <;> cases h1
      rfl
    rw [flat_node (by split <;> decide), flat_symbol, hx, flat_data h2, flatTree, treeExpr, tokenExpr, h1, h2]
    rfl
  | .node k cs, e, h => by
    rw [treeExpr] at h
    simp only [Option.bind_eq_bind, Option.bind_eq_some_iff, Option.pure_def, Option.some.injEq] at h
    obtain ⟨es, h1, s, h2, d, h3, rfl⟩ := h
    rw [flat_node (nodeHead_assoc k), flat_symbol, flat_list, flat_data h3, flatTree, treeExpr, flat_trees h1,
      seqSource_flat, h2]
    simp only [Option.bind_eq_bind, Option.bind_some, h3]
    rfl
  | .call hd m op b, e, h => by
    have hs := source_flat (.call hd m op b)
    rw [treeExpr] at h
    simp only [Option.bind_eq_bind, Option.bind_eq_some_iff, Option.pure_def, Option.some.injEq] at h
    obtain ⟨hs', h0, es, h1, s, h2, d, h3, s', h4, d', h5, rfl⟩ := h
    rw [h4, flatTree] at hs
    rw [flat_node (by decide), flat_list, flat_body, flat_data h3, flat_data h5, flatTree, treeExpr, flat_trees h0,
      flat_trees h1, seqSource_flat, h2, hs]
    simp only [Option.bind_eq_bind, Option.bind_some, h3, h5]
    rfl
  | .callAgg hd m op b, e, h => by
    have hs := source_flat (.callAgg hd m op b)
    rw [treeExpr] at h
    simp only [Option.bind_eq_bind, Option.bind_eq_some_iff, Option.pure_def, Option.some.injEq] at h
    obtain ⟨hs', h0, es, h1, s, h2, d, h3, s', h4, d', h5, rfl⟩ := h
    rw [h4, flatTree] at hs
    rw [flat_node (by decide), flat_body, flat_data h3, flat_data h5, flatTree, treeExpr, flat_tree h0,
      flat_trees h1, seqSource_flat, h2, hs]
    simp only [Option.bind_eq_bind, Option.bind_some, h3, h5]
    rfl
  | .box bk cs s, e, h => by
    rw [treeExpr] at h
    simp only [Option.bind_eq_bind, Option.bind_eq_some_iff, Option.pure_def, Option.some.injEq] at h
    obtain ⟨es, h1, d, h3, rfl⟩ := h
    have hb : flat (.sym (cs! "System`" ++ bk)) = .sym (cs! "System`" ++ bk) := rfl
    rw [flat_node (by decide), hb, flat_list, flat_data h3, flatTree, treeExpr, flat_trees h1, h3]
    rfl
  | .code a b s, e, h => by
    rw [treeExpr] at h
    simp only [Option.bind_eq_bind, Option.bind_eq_some_iff, Option.pure_def, Option.some.injEq] at h
    obtain ⟨d, h3, rfl⟩ := h
    rw [flat_node (by decide), flat_data h3, flatTree, treeExpr, h3]
    rfl
theorem flat_trees {compat : Bool} : ∀ {cs : List Tree} {es : List Expr}, treesExpr compat cs = some es →
    treesExpr compat (flatTrees cs) = some (flatL es)
  | [], _, h => by rw [treesExpr] at h; cases h; rfl
  | c :: cs, es, h => by
    rw [treesExpr] at h
    simp only [Option.bind_eq_bind, Option.bind_eq_some_iff, Option.pure_def, Option.some.injEq] at h
    obtain ⟨x, h1, y, h2, rfl⟩ := h
    rw [flatTrees, treesExpr, flat_tree h1, flat_trees h2]
    rfl
end

mutual
theorem proper_flat {compat : Bool} {kind : ContainerKind} : ∀ {t : Tree}, Proper compat kind t →
    Proper compat kind (flatTree t)
  | .leaf _ _ _, h => h
  | .node _ _, h => propers_flat (cs := _) h
  | .call _ _ _ _, h => ⟨propers_flat h.1, propers_flat h.2⟩
  | .callAgg _ _ _ _, h => ⟨proper_flat h.1, propers_flat h.2⟩
  | .box _ _ _, h => ⟨h.1, h.2.1, propers_flat h.2.2.1, h.2.2.2⟩
  | .code _ _ _, h => h
theorem propers_flat {compat : Bool} {kind : ContainerKind} : ∀ {cs : List Tree}, Propers compat kind cs →
    Propers compat kind (flatTrees cs)
  | [], h => h
  | _ :: _, h => ⟨proper_flat h.1, propers_flat h.2⟩
end

/-! ### Rules -/

/-- The rules that an optional value gives. -/
def pairs (key : Expr) : Option Expr → List (Expr × Expr)
  | none => []
  | some e => [(key, e)]

theorem mapR_append {α β : Type} {f : α → R β} : ∀ {as as' : List α} {bs bs' : List β}, mapR f as = .ok bs →
    mapR f as' = .ok bs' → mapR f (as ++ as') = .ok (bs ++ bs')
  | [], _, _, _, h, h' => by cases h; exact h'
  | a :: as, as', bs, bs', h, h' => by
    rw [mapR] at h
    cases h1 : f a with
    | error x => simp [h1] at h
    | ok b =>
    cases h2 : mapR f as with
    | error x => simp [h1, h2] at h
    | ok cs =>
    simp [h1, h2] at h
    subst h
    exact mapR_cons h1 (mapR_append h2 h')

theorem ruleOf_optRule (key : Expr) (o : Option Expr) : mapR ruleOf (optRule key o) = .ok (pairs key o) := by
  cases o with
  | none => rfl
  | some e => simp only [optRule, mapR, ruleOf_rule, pairs]

theorem addAll_append : ∀ (l l' : List (Expr × Expr)) {m m' : RawMeta}, m.addAll l = .ok m' →
    m.addAll (l ++ l') = m'.addAll l'
  | [], _, _, _, h => by cases h; rfl
  | (a, b) :: l, l', m, m', h => by
    rw [RawMeta.addAll] at h
    rw [List.cons_append, RawMeta.addAll]
    cases h1 : m.add a b with
    | error x => simp [h1] at h
    | ok m'' => simp only [h1] at h ⊢; exact addAll_append l l' h

theorem flat_optRule {key : Expr} {o : Option Expr} (hk : flat key = key) :
    (flatL (optRule key o)).flatMap splice = optRule key (o.map flat) := by
  cases o with
  | none => rfl
  | some e =>
    have hc : flatL [rule key e] = [flat (rule key e)] := rfl
    rw [optRule, hc, flat_rule, hk]
    simp [splice_rule, optRule]

/-- The rules of an association, field by field. -/
theorem addAll_fields (source issues confidence actions descs fileName tabs newlines simple complex : Option Expr) :
    RawMeta.addAll {} (pairs (.sym (cs! "CodeParser`SyntaxIssues")) issues ++
      pairs (text (cs! "EmbeddedTabs")) tabs ++ pairs (text (cs! "EmbeddedNewlines")) newlines ++
      pairs (text (cs! "SimpleLineContinuations")) simple ++ pairs (text (cs! "ComplexLineContinuations")) complex ++
      pairs (.sym (cs! "CodeParser`Source")) source ++ pairs (.sym (cs! "System`ConfidenceLevel")) confidence ++
      pairs (.sym (cs! "CodeParser`CodeActions")) actions ++ pairs (text (cs! "AdditionalDescriptions")) descs ++
      pairs (text (cs! "FileName")) fileName) =
    .ok ⟨source, issues, confidence, actions, descs, fileName, tabs, newlines, simple, complex⟩ := by
  have h1 : RawMeta.addAll {} (pairs (.sym (cs! "CodeParser`SyntaxIssues")) issues) = .ok { issues } := by
    cases issues <;> simp [pairs, RawMeta.addAll, RawMeta.add]
  have h2 : RawMeta.addAll { issues } (pairs (text (cs! "EmbeddedTabs")) tabs) = .ok { issues, tabs } := by
    cases tabs <;> simp [pairs, RawMeta.addAll, RawMeta.add, text]
  have h3 : RawMeta.addAll { issues, tabs } (pairs (text (cs! "EmbeddedNewlines")) newlines) =
      .ok { issues, tabs, newlines } := by
    cases newlines with
    | none => rfl
    | some e =>
      have : utf8 (cs! "EmbeddedNewlines") ≠ utf8 (cs! "EmbeddedTabs") := by decide
      simp [pairs, RawMeta.addAll, RawMeta.add, text, this]
  have h4 : RawMeta.addAll { issues, tabs, newlines } (pairs (text (cs! "SimpleLineContinuations")) simple) =
      .ok { issues, tabs, newlines, simple } := by
    cases simple with
    | none => rfl
    | some e =>
      have g1 : utf8 (cs! "SimpleLineContinuations") ≠ utf8 (cs! "EmbeddedTabs") := by decide
      have g2 : utf8 (cs! "SimpleLineContinuations") ≠ utf8 (cs! "EmbeddedNewlines") := by decide
      have g3 : utf8 (cs! "SimpleLineContinuations") ≠ utf8 (cs! "ComplexLineContinuations") := by decide
      simp [pairs, RawMeta.addAll, RawMeta.add, text, g1, g2, g3]
  have h5 : RawMeta.addAll { issues, tabs, newlines, simple } (pairs (text (cs! "ComplexLineContinuations")) complex) =
      .ok { issues, tabs, newlines, simple, complex } := by
    cases complex with
    | none => rfl
    | some e =>
      have g1 : utf8 (cs! "ComplexLineContinuations") ≠ utf8 (cs! "EmbeddedTabs") := by decide
      have g2 : utf8 (cs! "ComplexLineContinuations") ≠ utf8 (cs! "EmbeddedNewlines") := by decide
      simp [pairs, RawMeta.addAll, RawMeta.add, text, g1, g2]
  have h6 : RawMeta.addAll { issues, tabs, newlines, simple, complex } (pairs (.sym (cs! "CodeParser`Source")) source) =
      .ok { issues, tabs, newlines, simple, complex, source } := by
    cases source <;> simp [pairs, RawMeta.addAll, RawMeta.add]
  have h7 : RawMeta.addAll { issues, tabs, newlines, simple, complex, source }
      (pairs (.sym (cs! "System`ConfidenceLevel")) confidence) =
      .ok { issues, tabs, newlines, simple, complex, source, confidence } := by
    cases confidence <;> simp [pairs, RawMeta.addAll, RawMeta.add]
  have h8 : RawMeta.addAll { issues, tabs, newlines, simple, complex, source, confidence }
      (pairs (.sym (cs! "CodeParser`CodeActions")) actions) =
      .ok { issues, tabs, newlines, simple, complex, source, confidence, actions } := by
    cases actions <;> simp [pairs, RawMeta.addAll, RawMeta.add]
  have h9 : RawMeta.addAll { issues, tabs, newlines, simple, complex, source, confidence, actions }
      (pairs (text (cs! "AdditionalDescriptions")) descs) =
      .ok { issues, tabs, newlines, simple, complex, source, confidence, actions, descs } := by
    cases descs with
    | none => rfl
    | some e =>
      have g1 : utf8 (cs! "AdditionalDescriptions") ≠ utf8 (cs! "EmbeddedTabs") := by decide
      have g2 : utf8 (cs! "AdditionalDescriptions") ≠ utf8 (cs! "EmbeddedNewlines") := by decide
      have g3 : utf8 (cs! "AdditionalDescriptions") ≠ utf8 (cs! "ComplexLineContinuations") := by decide
      have g4 : utf8 (cs! "AdditionalDescriptions") ≠ utf8 (cs! "SimpleLineContinuations") := by decide
      have g5 : utf8 (cs! "AdditionalDescriptions") ≠ utf8 (cs! "InsertionText") := by decide
      have g6 : utf8 (cs! "AdditionalDescriptions") ≠ utf8 (cs! "ReplacementText") := by decide
      have g7 : utf8 (cs! "AdditionalDescriptions") ≠ utf8 (cs! "FileName") := by decide
      simp [pairs, RawMeta.addAll, RawMeta.add, text, g1, g2, g3, g4, g5, g6, g7]
  have h10 : RawMeta.addAll { issues, tabs, newlines, simple, complex, source, confidence, actions, descs }
      (pairs (text (cs! "FileName")) fileName) =
      .ok { issues, tabs, newlines, simple, complex, source, confidence, actions, descs, fileName } := by
    cases fileName with
    | none => rfl
    | some e =>
      have g1 : utf8 (cs! "FileName") ≠ utf8 (cs! "EmbeddedTabs") := by decide
      have g2 : utf8 (cs! "FileName") ≠ utf8 (cs! "EmbeddedNewlines") := by decide
      have g3 : utf8 (cs! "FileName") ≠ utf8 (cs! "ComplexLineContinuations") := by decide
      have g4 : utf8 (cs! "FileName") ≠ utf8 (cs! "SimpleLineContinuations") := by decide
      have g5 : utf8 (cs! "FileName") ≠ utf8 (cs! "InsertionText") := by decide
      have g6 : utf8 (cs! "FileName") ≠ utf8 (cs! "ReplacementText") := by decide
      simp [pairs, RawMeta.addAll, RawMeta.add, text, g1, g2, g3, g4, g5, g6]
  simp only [List.append_assoc]
  rw [addAll_append _ _ h1, addAll_append _ _ h2, addAll_append _ _ h3, addAll_append _ _ h4, addAll_append _ _ h5,
    addAll_append _ _ h6, addAll_append _ _ h7, addAll_append _ _ h8, addAll_append _ _ h9, h10]

end CodeParser.LinkP
