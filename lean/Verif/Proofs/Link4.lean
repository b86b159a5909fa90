import Verif.Proofs.Link3
/-!
Trees are read back as they were written.
-/
namespace CodeParser.LinkP
open CodeParser Wll Spec.Link

theorem withHead_eq (s : Sym) (as : List Expr) : withHead (.normal (symbol s) as) s = .ok as := by
  simp [withHead, symbol]

theorem withHead_ne {s t : Sym} (h : s ≠ t) (as : List Expr) : withHead (.normal (symbol s) as) t = bad := by
  have : s.name ≠ t.name := fun e => h (name_inj e)
  simp [withHead, symbol, this]

theorem list_eq (es : List Expr) : list es = .normal (symbol .System_List) es := rfl
theorem assoc_eq (es : List Expr) : assoc es = .normal (symbol .System_Association) es := rfl
theorem rule_eq (a b : Expr) : rule a b = .normal (symbol .System_Rule) [a, b] := rfl

/-! ### Sources -/

theorem posOf_nat {n : Nat} (h : n < 2 ^ 32) : posOf (nat n) = .ok n := by
  show (if n < 2 ^ 32 then Except.ok n else bad) = _
  rw [if_pos h]

theorem usize_all : ∀ (ix : List Nat) {es : List Expr}, all indexExpr ix = some es → mapR usizeOf es = .ok ix
  | [], _, h => by cases h; rfl
  | n :: ix, es, h => by
    rw [all] at h
    cases h1 : indexExpr n with
    | none => simp [h1] at h
    | some e =>
    cases h2 : all indexExpr ix with
    | none => simp [h1, h2] at h
    | some es' =>
    simp [h1, h2] at h
    subst h
    have he : e = nat n := by
      unfold indexExpr at h1
      split at h1 <;> cases h1
      rfl
    subst he
    have : usizeOf (nat n) = .ok n := rfl
    simp only [mapR, this, usize_all ix h2]

theorem headAndOne_ne {s t : Sym} (h : s ≠ t) (as : List Expr) : headAndOne (.normal (symbol s) as) t = .ok none := by
  simp [headAndOne, withHead_ne h, bad]

theorem listOf_list (f : Expr → R α) (es : List Expr) : listOf f (list es) = mapR f es := by
  rw [listOf, list_eq, withHead_eq]

theorem sourceOf_ok {compat : Bool} {kind : ContainerKind} {s : Source} {e : Expr} (h : sourceExpr s = some e)
    (hf : Fits compat kind s) (ho : omitted compat s = false) : Wll.sourceOf kind e = .ok s := by
  cases s with
  | unknown => cases h
  | span a b =>
    have hk : ∀ es, Wll.sourceOf kind (list es) = (match es with | [a, b] => textSource a b | _ => bad) := by
      intro es
      have ht : isText kind = true := by
        cases a <;> cases b <;> first | exact hf.1 | exact hf.elim
      rw [Wll.sourceOf, list_eq, headAndOne_ne (by decide), headAndOne_ne (by decide), withHead_eq]
      cases kind <;> first | rfl | cases ht
    cases a with
    | lineCol l c =>
      cases b with
      | lineCol l' c' =>
        obtain ⟨-, h1, h2, h3, h4, g1, g2, g3, g4, ho⟩ := hf
        cases h
        have hp : ∀ es : List Expr, posOf (list es) = .error .err := fun _ => rfl
        have hw : ∀ es : List Expr, withHead (list es) .System_List = .ok es := fun es => withHead_eq .System_List es
        rw [hk]
        show textSource _ _ = _
        simp only [textSource, hp, hw, posOf_nat g1, posOf_nat g2, posOf_nat g3, posOf_nat g4, bind, Except.bind]
        have hle : Loc.le (.lineCol l c) (.lineCol l' c') = true := by
          simp only [Loc.le, Bool.or_eq_true, decide_eq_true_eq, Bool.and_eq_true, beq_iff_eq]
          exact ho
        have hz : (l ≠ 0 && c ≠ 0 && l' ≠ 0 && c' ≠ 0) = true := by
          simp; omega
        simp only [spanOf, hz, hle, if_true]
      | index j => exact hf.elim
    | index i =>
      cases b with
      | lineCol l' c' => exact hf.elim
      | index j =>
        cases j with
        | zero => cases h
        | succ j =>
          obtain ⟨-, h1, h2⟩ := hf
          cases h
          rw [hk]
          show textSource _ _ = _
          simp only [textSource, posOf_nat h1, posOf_nat (show j < 2 ^ 32 by omega), bind, Except.bind]
          rw [if_pos h2]
  | box p =>
    obtain ⟨hk, hc⟩ := hf
    have key : ∀ es ix, mapR usizeOf es = .ok ix → Wll.sourceOf kind (list es) = .ok (.box (.at ix)) := by
      intro es ix hm
      have hl : listOf usizeOf (list es) = .ok ix := by rw [listOf_list, hm]
      rw [Wll.sourceOf]
      rw [list_eq] at hl ⊢
      rw [headAndOne_ne (by decide), headAndOne_ne (by decide), withHead_eq]
      cases kind <;> first | (simp only [bind, Except.bind, hl]; rfl) | exact absurd hk (by decide)
    cases p with
    | «at» ix =>
      rw [sourceExpr, posExpr] at h
      cases h1 : all indexExpr ix with
      | none => simp [h1] at h
      | some es => simp [h1] at h; subst h; exact key es ix (usize_all ix h1)
    | spanning ix a b => rw [hc] at ho; cases ho
    | before ix =>
      rw [sourceExpr, posExpr] at h
      cases h1 : all indexExpr ix with
      | none => simp [h1] at h
      | some es =>
        simp [h1] at h
        subst h
        have hl : listOf usizeOf (list es) = .ok ix := by rw [listOf_list, usize_all ix h1]
        have hb : headAndOne (.normal (symbol .System_Before) [list es]) .System_Before = .ok (some (list es)) := by
          rw [headAndOne, withHead_eq]
        show Wll.sourceOf kind (.normal (symbol .System_Before) [list es]) = _
        rw [Wll.sourceOf, headAndOne_ne (by decide), hb]
        simp only [bind, Except.bind, hl]
        rfl
    | after ix =>
      rw [sourceExpr, posExpr] at h
      cases h1 : all indexExpr ix with
      | none => simp [h1] at h
      | some es =>
        simp [h1] at h
        subst h
        have hl : listOf usizeOf (list es) = .ok ix := by rw [listOf_list, usize_all ix h1]
        have hb : headAndOne (.normal (symbol .System_After) [list es]) .System_After = .ok (some (list es)) := by
          rw [headAndOne, withHead_eq]
        show Wll.sourceOf kind (.normal (symbol .System_After) [list es]) = _
        rw [Wll.sourceOf, hb]
        simp only [bind, Except.bind, hl]
        rfl

theorem ruleOf_rule (a b : Expr) : ruleOf (rule a b) = .ok (a, b) := by
  rw [ruleOf, rule_eq, withHead_eq]

theorem assocOf_assoc (es : List Expr) : assocOf (assoc es) = mapR ruleOf es := by
  rw [assocOf, assoc_eq, withHead_eq]

theorem metaOf_data {f64 : Int → Nat} {compat : Bool} {kind : ContainerKind} {s : Source} {d : Expr} {n : Nat}
    (h : dataExpr compat s = some d) (hf : Fits compat kind s) (hn : 1 ≤ n) :
    metaOf f64 kind n d = .ok { source := backSource compat s } := by
  obtain ⟨n, rfl⟩ : ∃ m, n = m + 1 := ⟨n - 1, by omega⟩
  unfold dataExpr sourceRule at h
  cases ho : omitted compat s with
  | true =>
    rw [ho] at h
    simp at h
    subst h
    rw [metaOf, assocOf_assoc, backSource, ho]
    rfl
  | false =>
    rw [ho] at h
    cases h1 : sourceExpr s with
    | none => simp [h1] at h
    | some e =>
    simp [h1] at h
    subst h
    rw [metaOf, assocOf_assoc, backSource, ho]
    have hm : mapR ruleOf [rule (.sym (cs! "CodeParser`Source")) e] = .ok [(.sym (cs! "CodeParser`Source"), e)] := by
      simp only [mapR, ruleOf_rule]
    have ha : RawMeta.addAll {} [(.sym (cs! "CodeParser`Source"), e)] = .ok { source := some e } := by
      simp [RawMeta.addAll, RawMeta.add]
    rw [hm]
    simp only [bind, Except.bind, ha, sourceOf_ok h1 hf ho]
    rfl

/-! ### The sources of nodes fit -/

theorem fits_between {compat : Bool} {kind : ContainerKind} {a b c : Source} (ha : Fits compat kind a)
    (hb : Fits compat kind b) (h : a.between b = some c) : Fits compat kind c := by
  cases a with
  | unknown => cases b <;> cases h <;> trivial
  | span p q =>
    cases b with
    | unknown => cases h; trivial
    | box x => cases h
    | span r s =>
      simp only [Source.between] at h
      split at h
      · next hle =>
        cases h
        rw [Bool.and_eq_true] at hle
        cases p with
        | lineCol l c =>
          cases s with
          | index j => simp [Loc.le] at hle
          | lineCol l' c' =>
            cases q with
            | index _ => exact ha.elim
            | lineCol _ _ =>
              cases r with
              | index _ => exact hb.elim
              | lineCol _ _ =>
                have h2 := hle.2
                simp only [Loc.le, Bool.or_eq_true, decide_eq_true_eq, Bool.and_eq_true, beq_iff_eq] at h2
                simp only [Fits] at ha hb ⊢
                exact ⟨ha.1, by omega⟩
        | index i =>
          cases s with
          | lineCol _ _ => simp [Loc.le] at hle
          | index j =>
            cases q with
            | lineCol _ _ => exact ha.elim
            | index _ =>
              cases r with
              | lineCol _ _ => exact hb.elim
              | index _ =>
                simp only [Fits] at ha hb ⊢
                exact ⟨ha.1, by omega⟩
      · cases h
  | box p =>
    cases b with
    | unknown => cases h; trivial
    | span r s => cases h
    | box q =>
      simp only [Source.between, Option.map_eq_some_iff] at h
      obtain ⟨o, -, rfl⟩ := h
      cases o with
      | none => trivial
      | some x => exact ha

mutual
theorem fits_source {compat : Bool} {kind : ContainerKind} : ∀ {t : Tree} {s : Source}, Proper compat kind t →
    t.source = some s → Fits compat kind s
  | .leaf _ _ _, _, h, hs => by cases hs; exact h
  | .node _ cs, s, h, hs => fits_seq (cs := cs) h hs
  | .call hd m op b, s, h, hs => by
    rw [Tree.source] at hs
    cases h1 : firstSource hd with
    | none => simp [h1] at hs
    | some x =>
    cases h2 : seqSource b with
    | none => simp [h1, h2] at hs
    | some y =>
    simp only [h1, h2] at hs
    refine fits_between (fits_first h.1 h1) (fits_seq h.2 h2) hs
  | .callAgg hd m op b, s, h, hs => by
    rw [Tree.source] at hs
    cases h1 : hd.source with
    | none => simp [h1] at hs
    | some x =>
    cases h2 : seqSource b with
    | none => simp [h1, h2] at hs
    | some y =>
    simp only [h1, h2] at hs
    refine fits_between (fits_source h.1 h1) (fits_seq h.2 h2) hs
  | .box _ _ _, _, h, hs => by cases hs; exact h.2.2.2
  | .code _ _ _, _, h, hs => by cases hs; exact h
theorem fits_seq {compat : Bool} {kind : ContainerKind} : ∀ {cs : List Tree} {s : Source}, Propers compat kind cs →
    seqSource cs = some s → Fits compat kind s
  | [], _, _, hs => by cases hs
  | c :: cs, s, h, hs => by
    rw [seqSource] at hs
    cases h1 : c.source with
    | none => simp [h1] at hs
    | some x =>
    cases h2 : lastSource (some x) cs with
    | none => simp [h1, h2] at hs
    | some y =>
    simp only [h1, h2] at hs
    have hx := fits_source h.1 h1
    exact fits_between hx (fits_last (some x) (by rintro _ ⟨⟩; exact hx) h.2 h2) hs
theorem fits_first {compat : Bool} {kind : ContainerKind} : ∀ {cs : List Tree} {s : Source}, Propers compat kind cs →
    firstSource cs = some s → Fits compat kind s
  | [], _, _, hs => by cases hs
  | c :: cs, s, h, hs => fits_source h.1 (by rwa [firstSource] at hs)
theorem fits_last {compat : Bool} {kind : ContainerKind} : ∀ {cs : List Tree} {s : Source} (x : Option Source),
    (∀ y, x = some y → Fits compat kind y) → Propers compat kind cs → lastSource x cs = some s → Fits compat kind s
  | [], s, x, hx, _, hs => hx s (by rwa [lastSource] at hs)
  | c :: cs, s, x, _, h, hs => by
    rw [lastSource] at hs
    exact fits_last c.source (fun y hy => fits_source h.1 hy) h.2 hs
end

/-! ### Reading nodes -/

theorem three_eq (s : Sym) (a b c : Expr) : three (node s a b c) s = .ok (a, b, c) := by
  rw [three, node, withHead_eq]

theorem three_ne {s t : Sym} (h : s ≠ t) (a b c : Expr) : three (node s a b c) t = bad := by
  rw [three, node, withHead_ne h]
  rfl

theorem nodeOf_ne {α : Type} {data : Expr → R Meta} {tree : Expr → R Tree} {s t : Sym} {op : Expr → R α} {l l' : Bool}
    (h : s ≠ t) (a b c : Expr) : nodeOf data tree t op l l' (node s a b c) = bad := by
  rw [nodeOf, three_ne h]
  rfl

theorem nodeOf_eq {α : Type} {data : Expr → R Meta} {tree : Expr → R Tree} {s : Sym} {op : Expr → R α} {l l' : Bool}
    {a c : Expr} {es : List Expr} {o : α} {cs : List Tree} {m : Meta} (ho : op a = .ok o)
    (hc : mapR tree es = .ok cs) (hm : data c = .ok m) :
    nodeOf data tree s op l l' (node s a (list es) c) = .ok (o, cs) := by
  rw [nodeOf, three_eq]
  cases l <;> cases l' <;>
    simp [bind, Except.bind, ho, listOf_list, hc, hm, expect, pure, Except.pure]

theorem callOf_ne {data : Expr → R Meta} {tree : Expr → R Tree} {s : Sym} (h : s ≠ .CodeParser_CallNode) (a b c : Expr) :
    callOf data tree (node s a b c) = bad := by
  rw [callOf, three_ne h]
  rfl

theorem boxOf_ne {data : Expr → R Meta} {tree : Expr → R Tree} {s : Sym} (h : s ≠ .CodeParser_BoxNode) (a b c : Expr) :
    boxOf data tree (node s a b c) = bad := by
  rw [boxOf, three_ne h]
  rfl

theorem leafOf_ne {data : Expr → R Meta} {s : Sym} (h : s ≠ .CodeParser_LeafNode) (h' : s ≠ .CodeParser_ErrorNode)
    (a b c : Expr) : leafOf data (node s a b c) = bad := by
  have h1 : s.name ≠ Sym.CodeParser_LeafNode.name := fun e => h (name_inj e)
  have h2 : s.name ≠ Sym.CodeParser_ErrorNode.name := fun e => h' (name_inj e)
  simp [leafOf, node, symbol, h1, h2]

theorem leafOf_eq {data : Expr → R Meta} {s : Sym} (h : s = .CodeParser_LeafNode ∨ s = .CodeParser_ErrorNode)
    {a b c : Expr} {k : TK} {t : List UInt8} {m : Meta} (hk : kindOf a = .ok k) (ht : strOf b = .ok t)
    (hm : data c = .ok m) : leafOf data (node s a b c) = .ok (.leaf k t m.source) := by
  have h1 : (s.name = Sym.CodeParser_LeafNode.name || s.name = Sym.CodeParser_ErrorNode.name) = true := by
    rcases h with rfl | rfl <;> simp
  simp only [leafOf, node, symbol, h1, if_true, bind, Except.bind, hk, ht, hm]
  rfl

theorem orElse_bad {α : Type} (b : R α) : orElse bad b = b := rfl
theorem orElse_ok {α : Type} (a : α) (b : R α) : orElse (.ok a) b = .ok a := rfl
theorem asNode_bad {α : Type} (k : α → NodeKind) : asNode k bad = bad := rfl
theorem asNode_ok {α : Type} (k : α → NodeKind) (a : α) (cs : List Tree) :
    asNode k (.ok (a, cs)) = .ok (.node (k a) cs) := rfl

theorem size_pos (e : Expr) : 1 ≤ e.size := by cases e <;> simp [Expr.size] <;> omega

theorem size_node {s : Sym} {a b c : Expr} : (node s a b c).size = 2 + a.size + b.size + c.size := by
  simp [node, symbol, Expr.size, Expr.sizeL]
  omega

theorem size_list {es : List Expr} : (list es).size = 2 + Expr.sizeL es := by
  simp [list, Expr.size]

theorem short_box {n : Name} (h : '`' ∉ n) : Name.short (cs! "System`" ++ n) = n := by
  have key : ∀ (m : Name), '`' ∉ m → afterTick m = m := by
    intro m
    induction m with
    | nil => intro _; rfl
    | cons c m ih =>
      intro hm
      have h1 : m.contains '`' = false := by
        simp only [List.mem_cons, not_or] at hm
        simpa using hm.2
      have h2 : c ≠ '`' := by
        simp only [List.mem_cons, not_or] at hm
        exact fun e => hm.1 e.symm
      rw [afterTick, h1]
      simp [h2]
  have h1 : n.contains '`' = false := by simpa using h
  simp [Name.short, afterTick, h]

theorem boxKindOf_ok {n m : Name} (hm : n = m ++ cs! "Box") (h : '`' ∉ n) :
    boxKindOf (.sym (cs! "System`" ++ n)) = .ok n := by
  rw [boxKindOf, short_box h]
  have : endsBox n = true := by
    subst hm
    simp [endsBox]
  simp [this]

theorem treeExpr_head {compat : Bool} {t : Tree} {e : Expr} (h : treeExpr compat t = some e) :
    ∃ s a b c, e = node s a b c ∧ s ≠ .System_List := by
  cases t with
  | leaf k t s =>
    rw [treeExpr, tokenExpr] at h
    cases h1 : textExpr t with
    | none => simp [h1] at h
    | some x =>
    cases h2 : dataExpr compat s with
    | none => simp [h1, h2] at h
    | some y =>
    simp [h1, h2] at h
    subst h
    exact ⟨_, _, _, _, rfl, by split <;> decide⟩
  | node k cs =>
    rw [treeExpr] at h
    cases h1 : treesExpr compat cs with
    | none => simp [h1] at h
    | some es =>
    cases h2 : seqSource cs with
    | none => simp [h1, h2] at h
    | some s =>
    cases h3 : dataExpr compat s with
    | none => simp [h1, h2, h3] at h
    | some d =>
    simp [h1, h2, h3] at h
    subst h
    exact ⟨_, _, _, _, rfl, by cases k <;> simp [nodeHead]⟩
  | call hd m op b =>
    rw [treeExpr] at h
    simp only [Option.bind_eq_bind, Option.bind_eq_some_iff, Option.pure_def, Option.some.injEq] at h
    obtain ⟨_, _, _, _, _, _, _, _, _, _, _, _, rfl⟩ := h
    exact ⟨_, _, _, _, rfl, by decide⟩
  | callAgg hd m op b =>
    rw [treeExpr] at h
    simp only [Option.bind_eq_bind, Option.bind_eq_some_iff, Option.pure_def, Option.some.injEq] at h
    obtain ⟨_, _, _, _, _, _, _, _, _, _, _, _, rfl⟩ := h
    exact ⟨_, _, _, _, rfl, by decide⟩
  | box kind cs s =>
    rw [treeExpr] at h
    simp only [Option.bind_eq_bind, Option.bind_eq_some_iff, Option.pure_def, Option.some.injEq] at h
    obtain ⟨_, _, _, _, rfl⟩ := h
    exact ⟨_, _, _, _, rfl, by decide⟩
  | code a b s =>
    rw [treeExpr] at h
    simp only [Option.bind_eq_bind, Option.bind_eq_some_iff, Option.pure_def, Option.some.injEq] at h
    obtain ⟨_, _, rfl⟩ := h
    exact ⟨_, _, _, _, rfl, by decide⟩

/-- What a node is read as, if its operator and its children are. -/
theorem treeOf_node {f64 : Int → Nat} {kind : ContainerKind} {f : Nat} {k : NodeKind} {es : List Expr} {d : Expr}
    {cs : List Tree} {m : Meta} (hc : mapR (treeOf f64 kind f) es = .ok cs) (hm : metaOf f64 kind f d = .ok m) :
    treeOf f64 kind (f + 1) (node (nodeHead k) (symbol (nodeOp k)) (list es) d) = .ok (.node k cs) := by
  rw [treeOf]
  cases k with
  | «prefix» o =>
    have h := nodeOf_eq (s := .CodeParser_PrefixNode) (l := true) (l' := true) (opOf_name (Props.C39_prefix o)) hc hm
    simp [nodeHead, nodeOp, leafOf_ne, callOf_ne, boxOf_ne, nodeOf_ne, orElse_bad, asNode_bad, h, asNode_ok, orElse_ok]
  | «infix» o =>
    have h := nodeOf_eq (s := .CodeParser_InfixNode) (l := false) (l' := false) (opOf_name (Props.C39_infix o)) hc hm
    simp [nodeHead, nodeOp, leafOf_ne, callOf_ne, boxOf_ne, nodeOf_ne, orElse_bad, asNode_bad, h, asNode_ok, orElse_ok]
  | «postfix» o =>
    have h := nodeOf_eq (s := .CodeParser_PostfixNode) (l := true) (l' := true) (opOf_name (Props.C39_postfix o)) hc hm
    simp [nodeHead, nodeOp, leafOf_ne, callOf_ne, boxOf_ne, nodeOf_ne, orElse_bad, asNode_bad, h, asNode_ok, orElse_ok]
  | binary o =>
    have h := nodeOf_eq (s := .CodeParser_BinaryNode) (l := false) (l' := true) (opOf_name (Props.C39_binary o)) hc hm
    simp [nodeHead, nodeOp, leafOf_ne, callOf_ne, boxOf_ne, nodeOf_ne, orElse_bad, asNode_bad, h, asNode_ok, orElse_ok]
  | ternary o =>
    have h := nodeOf_eq (s := .CodeParser_TernaryNode) (l := true) (l' := true) (opOf_name (Props.C39_ternary o)) hc hm
    simp [nodeHead, nodeOp, leafOf_ne, callOf_ne, boxOf_ne, nodeOf_ne, orElse_bad, asNode_bad, h, asNode_ok, orElse_ok]
  | prefixBinary o =>
    have h := nodeOf_eq (s := .CodeParser_PrefixBinaryNode) (l := true) (l' := true)
      (opOf_name (Props.C39_prefixBinary o)) hc hm
    simp [nodeHead, nodeOp, leafOf_ne, callOf_ne, boxOf_ne, nodeOf_ne, orElse_bad, asNode_bad, h, asNode_ok, orElse_ok]
  | compound o =>
    have h := nodeOf_eq (s := .CodeParser_CompoundNode) (l := true) (l' := true) (opOf_name (Props.C39_compound o)) hc hm
    simp [nodeHead, nodeOp, leafOf_ne, callOf_ne, boxOf_ne, nodeOf_ne, orElse_bad, asNode_bad, h, asNode_ok, orElse_ok]
  | group o =>
    have h := nodeOf_eq (s := .CodeParser_GroupNode) (l := false) (l' := true) (opOf_name (Props.C39_group o)) hc hm
    simp [nodeHead, nodeOp, leafOf_ne, callOf_ne, boxOf_ne, nodeOf_ne, orElse_bad, asNode_bad, h, asNode_ok, orElse_ok]
  | groupMissingCloser o =>
    have h := nodeOf_eq (s := .CodeParser_GroupMissingCloserNode) (l := true) (l' := true)
      (opOf_name (Props.C39_group o)) hc hm
    simp [nodeHead, nodeOp, leafOf_ne, callOf_ne, boxOf_ne, nodeOf_ne, orElse_bad, asNode_bad, h, asNode_ok, orElse_ok]
  | groupMissingOpener o =>
    have h := nodeOf_eq (s := .CodeParser_GroupMissingOpenerNode) (l := true) (l' := true)
      (opOf_name (Props.C39_group o)) hc hm
    simp [nodeHead, nodeOp, leafOf_ne, callOf_ne, boxOf_ne, nodeOf_ne, orElse_bad, asNode_bad, h, asNode_ok, orElse_ok]
  | syntaxError o =>
    have h := nodeOf_eq (s := .CodeParser_SyntaxErrorNode) (l := true) (l' := true) (errorOf_name o) hc hm
    have h' : nodeHead (.syntaxError o) = .CodeParser_SyntaxErrorNode := rfl
    rw [h']
    simp [leafOf_ne, callOf_ne, boxOf_ne, nodeOf_ne, orElse_bad, asNode_bad, h, asNode_ok, orElse_ok]

theorem mapR_cons {α β : Type} {f : α → R β} {a : α} {as : List α} {b : β} {bs : List β} (h : f a = .ok b)
    (h' : mapR f as = .ok bs) : mapR f (a :: as) = .ok (b :: bs) := by
  simp only [mapR, h, h']

mutual
theorem treeOf_ok (f64 : Int → Nat) {compat : Bool} {kind : ContainerKind} : ∀ {t : Tree} {e : Expr} {n : Nat},
    treeExpr compat t = some e → Proper compat kind t → e.size ≤ n → treeOf f64 kind n e = .ok (back compat t)
  | .leaf k t s, e, n, h, hp, hn => by
    rw [treeExpr, tokenExpr] at h
    cases h1 : textExpr t with
    | none => simp [h1] at h
    | some x =>
    cases h2 : dataExpr compat s with
    | none => simp [h1, h2] at h
    | some y =>
    simp [h1, h2] at h
    subst h
    rw [size_node] at hn
    have := size_pos x
    obtain ⟨n, rfl⟩ : ∃ m, n = m + 1 := ⟨n - 1, by omega⟩
    have hx : strOf x = .ok t := by
      unfold textExpr at h1
      split at h1 <;> cases h1
      rfl
    rw [treeOf, leafOf_eq (by split <;> simp) (kindOf_name k) hx
      (metaOf_data (n := n) h2 hp (by omega)), orElse_ok]
    rfl
  | .node k cs, e, n, h, hp, hn => by
    rw [treeExpr] at h
    cases h1 : treesExpr compat cs with
    | none => simp [h1] at h
    | some es =>
    cases h2 : seqSource cs with
    | none => simp [h1, h2] at h
    | some s =>
    cases h3 : dataExpr compat s with
    | none => simp [h1, h2, h3] at h
    | some d =>
    simp [h1, h2, h3] at h
    subst h
    rw [size_node, size_list] at hn
    obtain ⟨n, rfl⟩ : ∃ m, n = m + 1 := ⟨n - 1, by omega⟩
    exact treeOf_node (mapR_ok f64 h1 hp (by omega)) (metaOf_data h3 (fits_seq hp h2) (by omega))
  | .call hd m op b, e, n, h, hp, hn => by
    have hsrc := @fits_source compat kind (.call hd m op b)
    rw [treeExpr] at h
    simp only [Option.bind_eq_bind, Option.bind_eq_some_iff, Option.pure_def, Option.some.injEq] at h
    obtain ⟨hs, h0, es, h1, s, h2, d, h3, s', h4, d', h5, rfl⟩ := h
    rw [size_node, bodyExpr, size_node, size_list, size_list] at hn
    obtain ⟨n, rfl⟩ : ∃ m, n = m + 1 := ⟨n - 1, by omega⟩
    have m1 := mapR_ok f64 h0 hp.1 (n := n) (by omega)
    have m2 := mapR_ok f64 h1 hp.2 (n := n) (by omega)
    have m3 := metaOf_data (f64 := f64) (n := n) h3 (fits_seq hp.2 h2) (by omega)
    have m4 := metaOf_data (f64 := f64) (n := n) h5 (hsrc hp h4) (by omega)
    have hc : callOf (metaOf f64 kind n) (treeOf f64 kind n)
        (node .CodeParser_CallNode (list hs) (bodyExpr m op (list es) d) d') = .ok (back compat (.call hd m op b)) := by
      have hl : withHead (list hs) .System_List = .ok hs := withHead_eq .System_List hs
      cases m with
      | false =>
        have hb := nodeOf_eq (s := .CodeParser_GroupNode) (l := false) (l' := true) (opOf_name (Props.C39_call op)) m2 m3
        have hb' : bodyExpr false op (list es) d = node .CodeParser_GroupNode (symbol op.toSymbol) (list es) d := rfl
        rw [callOf, three_eq, hb']
        simp [bind, Except.bind, hl, hb, listOf_list, m1, m4, expect, back, pure, Except.pure]
      | true =>
        have hb := nodeOf_eq (s := .CodeParser_GroupMissingCloserNode) (l := true) (l' := true)
          (opOf_name (Props.C39_call op)) m2 m3
        have hb' : bodyExpr true op (list es) d =
          node .CodeParser_GroupMissingCloserNode (symbol op.toSymbol) (list es) d := rfl
        rw [callOf, three_eq, hb']
        simp [bind, Except.bind, hl, hb, nodeOf_ne, bad, listOf_list, m1, m4, expect, back, pure, Except.pure]
    rw [treeOf, leafOf_ne (by decide) (by decide), orElse_bad, hc, orElse_ok]
  | .callAgg hd m op b, e, n, h, hp, hn => by
    have hsrc := @fits_source compat kind (.callAgg hd m op b)
    rw [treeExpr] at h
    simp only [Option.bind_eq_bind, Option.bind_eq_some_iff, Option.pure_def, Option.some.injEq] at h
    obtain ⟨hs, h0, es, h1, s, h2, d, h3, s', h4, d', h5, rfl⟩ := h
    rw [size_node, bodyExpr, size_node, size_list] at hn
    have := size_pos hs
    obtain ⟨n, rfl⟩ : ∃ m, n = m + 1 := ⟨n - 1, by omega⟩
    have m1 := treeOf_ok f64 h0 hp.1 (n := n) (by omega)
    have m2 := mapR_ok f64 h1 hp.2 (n := n) (by omega)
    have m3 := metaOf_data (f64 := f64) (n := n) h3 (fits_seq hp.2 h2) (by omega)
    have m4 := metaOf_data (f64 := f64) (n := n) h5 (hsrc hp h4) (by omega)
    have hc : callOf (metaOf f64 kind n) (treeOf f64 kind n)
        (node .CodeParser_CallNode hs (bodyExpr m op (list es) d) d') = .ok (back compat (.callAgg hd m op b)) := by
      have hl : withHead hs .System_List = bad := by
        obtain ⟨s, a, b, c, rfl, hne⟩ := treeExpr_head h0
        exact withHead_ne hne _
      cases m with
      | false =>
        have hb := nodeOf_eq (s := .CodeParser_GroupNode) (l := false) (l' := true) (opOf_name (Props.C39_call op)) m2 m3
        have hb' : bodyExpr false op (list es) d = node .CodeParser_GroupNode (symbol op.toSymbol) (list es) d := rfl
        rw [callOf, three_eq, hb']
        simp [bind, Except.bind, hl, hb, listOf_list, m1, m4, expect, back, pure, Except.pure, bad]
      | true =>
        have hb := nodeOf_eq (s := .CodeParser_GroupMissingCloserNode) (l := true) (l' := true)
          (opOf_name (Props.C39_call op)) m2 m3
        have hb' : bodyExpr true op (list es) d =
          node .CodeParser_GroupMissingCloserNode (symbol op.toSymbol) (list es) d := rfl
        rw [callOf, three_eq, hb']
        simp [bind, Except.bind, hl, hb, nodeOf_ne, bad, listOf_list, m1, m4, expect, back, pure, Except.pure]
    rw [treeOf, leafOf_ne (by decide) (by decide), orElse_bad, hc, orElse_ok]
  | .box bk cs s, e, n, h, hp, hn => by
    rw [treeExpr] at h
    simp only [Option.bind_eq_bind, Option.bind_eq_some_iff, Option.pure_def, Option.some.injEq] at h
    obtain ⟨es, h1, d, h3, rfl⟩ := h
    rw [size_node, size_list] at hn
    obtain ⟨n, rfl⟩ : ∃ m, n = m + 1 := ⟨n - 1, by omega⟩
    obtain ⟨⟨mm, hm⟩, ht, hcs, hs⟩ := hp
    have m2 := mapR_ok f64 h1 hcs (n := n) (by omega)
    have m3 := metaOf_data (f64 := f64) (n := n) h3 hs (by omega)
    have hb : boxOf (metaOf f64 kind n) (treeOf f64 kind n)
        (node .CodeParser_BoxNode (.sym (cs! "System`" ++ bk)) (list es) d) = .ok (back compat (.box bk cs s)) := by
      rw [boxOf, three_eq]
      simp only [bind, Except.bind, boxKindOf_ok hm ht, expect, listOf_list, m2, m3]
      rfl
    rw [treeOf]
    simp [leafOf_ne, callOf_ne, nodeOf_ne, orElse_bad, asNode_bad] at hb ⊢
    rw [hb, orElse_ok]
  | .code a b s, e, n, h, hp, hn => by
    rw [treeExpr] at h
    simp only [Option.bind_eq_bind, Option.bind_eq_some_iff, Option.pure_def, Option.some.injEq] at h
    obtain ⟨d, h3, rfl⟩ := h
    rw [size_node] at hn
    have := size_pos a
    obtain ⟨n, rfl⟩ : ∃ m, n = m + 1 := ⟨n - 1, by omega⟩
    have m3 := metaOf_data (f64 := f64) (n := n) h3 hp (by omega)
    rw [treeOf]
    simp [leafOf_ne, callOf_ne, nodeOf_ne, orElse_bad, asNode_bad, boxOf_ne]
    rw [codeOf, three_eq]
    simp only [bind, Except.bind, m3]
    rfl
theorem mapR_ok (f64 : Int → Nat) {compat : Bool} {kind : ContainerKind} : ∀ {cs : List Tree} {es : List Expr} {n : Nat},
    treesExpr compat cs = some es → Propers compat kind cs → Expr.sizeL es ≤ n →
    mapR (treeOf f64 kind n) es = .ok (backs compat cs)
  | [], _, _, h, _, _ => by rw [treesExpr] at h; cases h; rfl
  | c :: cs, es, n, h, hp, hn => by
    rw [treesExpr] at h
    cases h1 : treeExpr compat c with
    | none => simp [h1] at h
    | some e =>
    cases h2 : treesExpr compat cs with
    | none => simp [h1, h2] at h
    | some es' =>
    simp [h1, h2] at h
    subst h
    rw [Expr.sizeL] at hn
    exact mapR_cons (treeOf_ok f64 h1 hp.1 (by omega)) (mapR_ok f64 h2 hp.2 (by omega))
end

end CodeParser.LinkP
